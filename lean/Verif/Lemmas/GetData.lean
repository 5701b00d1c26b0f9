/-
Lemmas about the extraction of values and names.
-/
import Verif.Model.GetData
import Verif.Spec.Extraction
import Verif.Lemmas.Frequency
import Verif.Lemmas.Increment
import Verif.Lemmas.CleanMisc
import Mathlib.Data.List.Induction

set_option autoImplicit false

namespace Xls
open Spec

/-! ### Python operations -/

theorem floatOf_number (ext : Ext) (c : Cell) :
    (∀ x, floatOf ext c = .ok x ↔ numberIn ext c = some x) ∧
    ((∃ e, floatOf ext c = .error e) ↔ numberIn ext c = none) := by
  cases c with
  | none => simp [floatOf, numberIn]
  | bool b => cases b <;> simp [floatOf, numberIn]
  | int i => simp [floatOf, numberIn]
  | float x => simp [floatOf, numberIn]
  | str s => cases h : ext.floatOfStr s <;> simp [floatOf, numberIn, h]
  | dt t => simp [floatOf, numberIn]

theorem validFloat_eq (ext : Ext) (c : Cell) : validFloat ext c = numberIn ext c := by
  have h := floatOf_number ext c
  unfold validFloat
  cases hf : floatOf ext c with
  | ok x => exact ((h.1 x).1 hf).symm
  | error e => exact (h.2.1 ⟨e, hf⟩).symm

theorem cellEq_iff (c : Cell) (m : PVal) :
    cellEq c m = true ↔ ∃ p, plainCell c = some p ∧ plainParam m = some p := by
  have key : ∀ (q : Rat), (match PVal.number m with
      | some q' => q == q'
      | Option.none => false) = true ↔ plainParam m = some (.number q) := by
    intro q
    cases m with
    | none => simp [PVal.number, plainParam]
    | bool b => cases b <;> simp [PVal.number, plainParam] <;> exact eq_comm
    | int i => simp [PVal.number, plainParam]; exact eq_comm
    | float x =>
      cases x with
      | nan => simp [PVal.number, plainParam]
      | fin x => simp [PVal.number, plainParam]; exact eq_comm
    | str s => simp [PVal.number, plainParam]
    | list xs => simp [PVal.number, plainParam]
    | dict kvs => simp [PVal.number, plainParam]
  cases c with
  | none => cases m <;> simp [cellEq, PVal.isNone, plainCell, plainParam]
            all_goals (try (rename_i x; cases x <;> simp))
  | bool b =>
    have := key (if b then 1 else 0)
    simp only [cellEq, PVal.pyEq, plainCell, Option.some.injEq, exists_eq_left']
    exact this
  | int i =>
    have := key i
    simp only [cellEq, PVal.pyEq, plainCell, Option.some.injEq, exists_eq_left']
    exact this
  | float x =>
    cases x with
    | nan => simp [cellEq, PVal.pyEq, plainCell]
    | fin q =>
      have := key q
      simp only [cellEq, PVal.pyEq, plainCell, Option.some.injEq, exists_eq_left']
      exact this
  | str s =>
    cases m with
    | float x => cases x <;> simp [cellEq, PVal.pyEq, plainCell, plainParam]
    | str t => simp [cellEq, PVal.pyEq, plainCell, plainParam]; exact eq_comm
    | _ => simp [cellEq, PVal.pyEq, plainCell, plainParam]
  | dt t => simp [cellEq, plainCell]

theorem cellIn_list (c : Cell) (ms : List PVal) :
    cellIn c (.list ms) = .ok (decide (IsMarker ms c)) := by
  change Except.ok (ms.any (cellEq c)) = _
  congr 1
  rw [Bool.eq_iff_iff, List.any_eq_true, decide_eq_true_eq]
  constructor
  · rintro ⟨m, hm, h⟩
    obtain ⟨p, h1, h2⟩ := (cellEq_iff c m).1 h
    exact ⟨p, h1, m, hm, h2⟩
  · rintro ⟨p, h1, m, hm, h2⟩
    exact ⟨m, hm, (cellEq_iff c m).2 ⟨p, h1, h2⟩⟩

theorem stripCell_eq (c : Cell) : stripCell c = trimmed c := by cases c <;> rfl

/-! ### One row -/

/-- What the row at position `i` contributes. -/
def rowEntry (ext : Ext) (sp : SParams) (s : Sheet) (hr hc i : Int) : Except Err (Option Num) :=
  match s.read (axisCell sp.alignment hr hc i).1 (axisCell sp.alignment hr hc i).2 with
  | .error e => .error e
  | .ok v =>
    match handleValue ext sp v with
    | .error _ => .error .exception
    | .ok nv =>
      match toBeAdded sp s nv i with
      | .error e => .error e
      | .ok add => .ok (if add then nv else none)

/-- What the rows contribute, up to the first error. -/
def rowEntries (ext : Ext) (sp : SParams) (s : Sheet) (hr hc : Int) :
    List Int → Except Err (List Num)
  | [] => .ok []
  | i :: is =>
    match rowEntry ext sp s hr hc i with
    | .error e => .error e
    | .ok x =>
      match rowEntries ext sp s hr hc is with
      | .error e => .error e
      | .ok xs => .ok (x.toList ++ xs)

/-- Values handed out to the letters of a cycle, from its `k`-th place on. -/
def dealAll (pattern : Str) : Nat → List (Str × List Num) → List Num → List (Str × List Num)
  | _, m, [] => m
  | k, m, x :: xs => dealAll pattern (k + 1) (dealTo m (letterAt pattern k).toList x) xs

theorem getFrequency_cycle {pattern : Str} (hp : pattern ≠ []) (k : Nat) {last : Str}
    (hl : pattern.length = 1 ∨ last = consumed pattern k) :
    ∃ last', getFrequency pattern last = .ok ((letterAt pattern k).toList, last') ∧
      (pattern.length = 1 ∨ last' = consumed pattern (k + 1)) := by
  unfold getFrequency
  by_cases h1 : pattern.length = 1
  · rw [if_pos h1]
    refine ⟨last, ?_, .inl h1⟩
    obtain ⟨c, rfl⟩ := List.length_eq_one_iff.1 h1
    simp [letterAt, Nat.mod_one]
  · rw [if_neg h1]
    rcases hl with hl | hl
    · exact absurd hl h1
    · subst hl
      obtain ⟨c, hc, hn⟩ := nextFrequency_consumed hp k
      rw [hn, hc]
      exact ⟨_, rfl, .inr rfl⟩

theorem toBeAdded_none {sp : SParams} {s : Sheet} {i : Int} {b : Bool}
    (h : toBeAdded sp s none i = .ok b) : b = false := by
  unfold toBeAdded at h
  split at h
  · cases h; rfl
  · split at h
    · cases h
    · dsimp only at h
      split at h
      · cases h
      · cases h; rfl

theorem valuesLoop_eq (ext : Ext) (sp : SParams) (s : Sheet) (hr hc : Int)
    (hp : sp.frequency ≠ []) : ∀ (is : List Int) (m : List (Str × List Num)) (last : Str) (k : Nat),
    (sp.frequency.length = 1 ∨ last = consumed sp.frequency k) →
    valuesLoop ext sp s hr hc is m last =
      match rowEntries ext sp s hr hc is with
      | .error e => .error e
      | .ok xs => .ok (dealAll sp.frequency k m xs)
  | [], m, last, k, _ => rfl
  | i :: is, m, last, k, hl => by
    unfold valuesLoop rowEntries rowEntry
    dsimp only
    cases h1 : s.read (axisCell sp.alignment hr hc i).1 (axisCell sp.alignment hr hc i).2 with
    | error e => rfl
    | ok v =>
      dsimp only
      cases h2 : handleValue ext sp v with
      | error e => rfl
      | ok nv =>
        dsimp only
        cases h3 : toBeAdded sp s nv i with
        | error e => rfl
        | ok add =>
          dsimp only
          cases nv with
          | none =>
            have := toBeAdded_none h3
            subst this
            dsimp only
            rw [valuesLoop_eq ext sp s hr hc hp is m last k hl]
            cases rowEntries ext sp s hr hc is <;> rfl
          | some x =>
            cases add with
            | false =>
              dsimp only
              rw [valuesLoop_eq ext sp s hr hc hp is m last k hl]
              cases rowEntries ext sp s hr hc is <;> rfl
            | true =>
              dsimp only
              obtain ⟨last', h4, hl'⟩ := getFrequency_cycle hp k hl
              rw [h4]
              dsimp only
              rw [valuesLoop_eq ext sp s hr hc hp is _ last' (k + 1) hl']
              cases rowEntries ext sp s hr hc is <;> rfl

/-! ### Dealing values to frequencies -/

theorem dealAll_append (pattern : Str) : ∀ (xs ys : List Num) (k : Nat) (m : List (Str × List Num)),
    dealAll pattern k m (xs ++ ys) = dealAll pattern (k + xs.length) (dealAll pattern k m xs) ys
  | [], ys, k, m => rfl
  | x :: xs, ys, k, m => by
    simp only [List.cons_append, dealAll, List.length_cons]
    rw [dealAll_append pattern xs ys (k + 1)]
    congr 1; omega

/-- The dictionary of the letters seen after `xs`. -/
def dealt (pattern : Str) (xs : List Num) : List (Str × List Num) :=
  (lettersSeen pattern xs.length).map fun c => ([c], ofLetter pattern c xs)

theorem dealTo_map_mem {cs : List Char} (f : Char → List Num) {c : Char} (x : Num) (hn : cs.Nodup)
    (hc : c ∈ cs) : dealTo (cs.map fun d => ([d], f d)) [c] x =
      cs.map fun d => ([d], if d = c then f d ++ [x] else f d) := by
  induction cs with
  | nil => cases hc
  | cons d ds ih =>
    rw [List.nodup_cons] at hn
    simp only [List.map_cons, dealTo]
    by_cases hd : d = c
    · subst hd
      rw [if_pos rfl, if_pos rfl]
      congr 1
      apply List.map_congr_left
      intro a ha
      rw [if_neg]
      rintro rfl
      exact hn.1 ha
    · rw [if_neg (by simpa using hd), if_neg hd, ih hn.2]
      simpa [Ne.symm hd] using hc

theorem dealTo_map_new {cs : List Char} (f : Char → List Num) {c : Char} (x : Num) (hc : c ∉ cs) :
    dealTo (cs.map fun d => ([d], f d)) [c] x = (cs.map fun d => ([d], f d)) ++ [([c], [x])] := by
  induction cs with
  | nil => rfl
  | cons d ds ih =>
    simp only [List.mem_cons, not_or] at hc
    simp only [List.map_cons, dealTo]
    rw [if_neg (by simpa using Ne.symm hc.1), ih hc.2]
    rfl

theorem letterAt_some {pattern : Str} (hp : pattern ≠ []) (k : Nat) :
    ∃ c, letterAt pattern k = some c := by
  unfold letterAt
  have : 0 < pattern.length := List.length_pos_iff.2 hp
  exact ⟨_, List.getElem?_eq_getElem (Nat.mod_lt _ this)⟩

theorem lettersSeen_succ {pattern : Str} {n : Nat} {c : Char} (hc : letterAt pattern n = some c) :
    lettersSeen pattern (n + 1) =
      if c ∈ lettersSeen pattern n then lettersSeen pattern n else lettersSeen pattern n ++ [c] := by
  unfold lettersSeen
  rw [List.range_succ, List.filterMap_append, List.eraseDups_append]
  simp only [List.filterMap_cons, List.filterMap_nil, hc, List.mem_eraseDups]
  by_cases h : c ∈ (List.range n).filterMap (letterAt pattern)
  · rw [if_pos h]
    have : [c].removeAll ((List.range n).filterMap (letterAt pattern)) = [] := by
      rw [List.removeAll, List.filter_eq_nil_iff]
      intro a ha
      simp only [List.mem_singleton] at ha
      subst ha
      simpa using h
    rw [this]; simp
  · rw [if_neg h]
    have : [c].removeAll ((List.range n).filterMap (letterAt pattern)) = [c] := by
      rw [List.removeAll, List.filter_eq_self]
      intro a ha
      simp only [List.mem_singleton] at ha
      subst ha
      simpa using h
    rw [this]; rfl

theorem mem_lettersSeen {pattern : Str} {n : Nat} {c : Char} :
    c ∈ lettersSeen pattern n ↔ ∃ k, k < n ∧ letterAt pattern k = some c := by
  unfold lettersSeen
  rw [List.mem_eraseDups]
  simp

theorem nodup_lettersSeen (pattern : Str) (n : Nat) : (lettersSeen pattern n).Nodup := by
  by_cases hp : pattern = []
  · subst hp
    have : (List.range n).filterMap (letterAt []) = [] := by
      rw [List.filterMap_eq_nil_iff]; intro a _; rfl
    unfold lettersSeen
    rw [this]; simp
  · induction n with
    | zero => exact List.nodup_nil
    | succ n ih =>
      obtain ⟨c, hc⟩ := letterAt_some hp n
      rw [lettersSeen_succ hc]
      split
      · exact ih
      · next h =>
        rw [List.nodup_append]
        refine ⟨ih, by simp, ?_⟩
        intro a ha b hb
        simp only [List.mem_singleton] at hb
        subst hb
        rintro rfl
        exact h ha

theorem ofLetter_eq_nil {pattern : Str} {c : Char} {xs : List Num}
    (h : c ∉ lettersSeen pattern xs.length) : ofLetter pattern c xs = [] := by
  unfold ofLetter
  rw [List.map_eq_nil_iff, List.filter_eq_nil_iff]
  intro p hp
  have := List.mem_zipIdx hp
  simp only [decide_eq_true_eq]
  intro hc
  exact h (mem_lettersSeen.2 ⟨p.2, by omega, hc⟩)

theorem dealt_snoc {pattern : Str} (hp : pattern ≠ []) (xs : List Num) (x : Num) :
    dealTo (dealt pattern xs) (letterAt pattern xs.length).toList x = dealt pattern (xs ++ [x]) := by
  obtain ⟨c, hc⟩ := letterAt_some hp xs.length
  unfold dealt
  rw [hc, List.length_append, List.length_singleton, lettersSeen_succ hc]
  simp only [Option.toList_some]
  by_cases h : c ∈ lettersSeen pattern xs.length
  · rw [if_pos h, dealTo_map_mem _ _ (nodup_lettersSeen _ _) h]
    apply List.map_congr_left
    intro d _
    rw [ofLetter_snoc, hc]
    by_cases hd : d = c
    · subst hd; simp
    · rw [if_neg hd, if_neg (by simpa using Ne.symm hd)]; simp
  · rw [if_neg h, dealTo_map_new _ _ h, List.map_append]
    congr 1
    · apply List.map_congr_left
      intro d hd
      rw [ofLetter_snoc, hc, if_neg, List.append_nil]
      intro e
      injection e with e
      subst e
      exact h hd
    · simp only [List.map_cons, List.map_nil]
      rw [ofLetter_snoc, hc, ofLetter_eq_nil h]
      simp

theorem dealAll_eq {pattern : Str} (hp : pattern ≠ []) (xs : List Num) :
    dealAll pattern 0 [] xs = dealt pattern xs := by
  induction xs using List.reverseRecOn with
  | nil => rfl
  | append_singleton xs x ih =>
    rw [dealAll_append, ih, Nat.zero_add]
    simp only [dealAll]
    exact dealt_snoc hp xs x

theorem dealt_single (c : Char) (xs : List Num) :
    dealt [c] xs = if xs = [] then [] else [([c], xs)] := by
  have hl : ∀ k, letterAt [c] k = some c := by intro k; simp [letterAt, Nat.mod_one]
  have ho : ofLetter [c] c xs = xs := by
    unfold ofLetter
    rw [List.filter_eq_self.2 (by intro p _; simp [hl])]
    simp
  cases xs with
  | nil => rfl
  | cons x xs =>
    rw [if_neg (by simp)]
    unfold dealt
    have : lettersSeen [c] (x :: xs).length = [c] := by
      simp only [List.length_cons]
      induction xs.length with
      | zero => rw [lettersSeen_succ (hl _)]; rfl
      | succ n ih => rw [lettersSeen_succ (hl _), ih, if_pos (by simp)]
    rw [this]; simp [ho]

end Xls
