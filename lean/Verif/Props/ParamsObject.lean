/-
C38, C39, C43, C44: removing series, completeness, building again.
-/
import Verif.Props.ParamsLayout

set_option autoImplicit false

namespace Xls
open Spec

/-! ### C38: removing a series -/

theorem num_perSeries {p : Params} {N : Nat} (h : PerSeries p N) {n : Name} {vs : List PVal}
    (hn : p n = .list vs) (hm : n ≠ .missingValue) : p.num = some N := by
  rw [Params.num_eq_some]
  refine ⟨⟨n, vs, hn, hm, ?_⟩, ?_⟩
  · rcases h n with h | ⟨ws, h, hl⟩
    · rw [hn] at h; cases h
    · rw [hn] at h; cases h; exact hl
  · intro m ws hw _
    rcases h m with h | ⟨ws', h, hl⟩
    · rw [hw] at h; cases h
    · rw [hw] at h; cases h; omega

theorem seriesDict_congr {p q : Params} {i j : Nat} (hnone : ∀ n, (q n).isNone = (p n).isNone)
    (h : ∀ n, (p n).isNone = false → Params.index (q n) j = Params.index (p n) i) (ns : List Name) :
    q.seriesDict j ns = p.seriesDict i ns := by
  induction ns with
  | nil => rfl
  | cons n ns ih =>
    rw [Params.seriesDict, Params.seriesDict, hnone n]
    cases hp : (p n).isNone with
    | true => simp [ih]
    | false => simp only [Bool.false_eq_true, if_false]; rw [h n hp, ih]

/-- `remove_series(i)`: the number of series is one less; the series before `i` keep all their
parameters, those after `i` too, under an index one less. -/
theorem C38_other_series (p q : Params) (N i : Nat) (hp : PerSeries p N) (hN : p.num = some N)
    (h : p.removeSeries i = .ok q) :
    i < N ∧ q.num = some (N - 1) ∧ PerSeries q (N - 1) ∧
      (∀ j, j < i → q.series j = p.series j) ∧ ∀ j, i ≤ j → q.series j = p.series (j + 1) := by
  unfold Params.removeSeries at h
  rw [hN] at h
  simp only at h
  split at h
  · cases h
  next hi =>
  have hi : i < N := by omega
  cases h
  have hq : PerSeries (fun n => Params.eraseAt N i (p n)) (N - 1) := by
    intro n
    rcases hp n with h | ⟨vs, h, hl⟩
    · left; simp only [h]; rfl
    · right
      refine ⟨vs.eraseIdx i, ?_, ?_⟩
      · simp only [h, Params.eraseAt, hl, if_true]
      · rw [List.length_eraseIdx, if_pos (by omega), hl]
  have hnone : ∀ n, ((fun n => Params.eraseAt N i (p n)) n).isNone = (p n).isNone := by
    intro n
    rcases hp n with h | ⟨vs, h, hl⟩
    · simp only [h]; rfl
    · simp only [h, Params.eraseAt, hl, if_true]; rfl
  obtain ⟨⟨n, vs, hn, hm, hl⟩, _⟩ := Params.num_eq_some.1 hN
  refine ⟨hi, num_perSeries (n := n) (vs := vs.eraseIdx i) hq ?_ hm, hq, ?_, ?_⟩
  · simp only [hn, Params.eraseAt, hl, if_true]
  · intro j hj
    refine seriesDict_congr hnone (fun n hnn => ?_) _
    rcases hp n with h | ⟨vs, h, hl⟩
    · rw [h] at hnn; cases hnn
    · simp only [h, Params.eraseAt, hl, if_true, Params.index, List.getElem?_eraseIdx, hj]
  · intro j hj
    refine seriesDict_congr hnone (fun n hnn => ?_) _
    rcases hp n with h | ⟨vs, h, hl⟩
    · rw [h] at hnn; cases hnn
    · simp only [h, Params.eraseAt, hl, if_true, Params.index, List.getElem?_eraseIdx]
      rw [if_neg (by omega)]

/-- `remove_series(i)` for any object: a list of another length, or a value that is no list, is left
alone. -/
theorem C38_nothing_else (p q : Params) (N i : Nat) (hN : p.num = some N)
    (h : p.removeSeries i = .ok q) (n : Name)
    (hn : ∀ vs, p n = .list vs → vs.length ≠ N) : q n = p n := by
  unfold Params.removeSeries at h
  rw [hN] at h
  simp only at h
  split at h
  · cases h
  · cases h
    cases hv : p n with
    | list vs => simp [hv, Params.eraseAt, hn vs hv]
    | _ => simp [hv, Params.eraseAt]

/-- Any series can be removed, and only those there are. -/
theorem C38_index (p : Params) (N i : Nat) (hN : p.num = some N) :
    (i < N → ∃ q, p.removeSeries i = .ok q) ∧
      (N ≤ i → p.removeSeries i = .error .indexError) := by
  unfold Params.removeSeries
  rw [hN]
  constructor
  · intro h
    exact ⟨_, by simp only; rw [if_neg (by omega)]⟩
  · intro h
    simp only
    rw [if_pos h]

example : PerSeries Sample.pair 2 ∧ Sample.pair.num = some 2 ∧
    ∃ q, Sample.pair.removeSeries 0 = .ok q ∧ q .dataEnds = .list [.int 12] ∧
      q .headersCoord = .list [.str c!"C1"] :=
  ⟨fun n => by
    cases n <;> first | exact Or.inl rfl | exact Or.inr ⟨_, rfl, rfl⟩, rfl, _, rfl, rfl, rfl⟩

/-! ### C39: removing the series with blank headers -/

theorem blankValue_iff (c : Cell) : BlankValue c ↔ c.truthy = false := by
  unfold BlankValue
  cases c with
  | none => simp [Cell.truthy]
  | bool b => cases b <;> simp [Cell.truthy]
  | int i => simp [Cell.truthy]
  | float x => cases x <;> simp [Cell.truthy]
  | str s => simp [Cell.truthy]
  | dt t => simp [Cell.truthy]

theorem cellValue_coord {ws : Sheet} {p : Pos} (h : 1 ≤ p.1 ∧ 1 ≤ p.2) :
    Params.cellValue ws (.str (coordStr p.1 p.2)) = .ok (ws.cells p.1 p.2) := by
  unfold Params.cellValue
  rw [cellOf_coordStr h.1 h.2]

theorem anyValue_names {ws : Sheet} {ps : List Pos} (hp : Positive ps) :
    Params.anyValue ws (names ps) = .ok (ps.any fun p => (ws.cells p.1 p.2).truthy) := by
  induction ps with
  | nil => rfl
  | cons p ps ih =>
    have ih := ih fun x hx => hp x (List.mem_cons_of_mem _ hx)
    simp only [names, List.map_cons] at ih ⊢
    rw [Params.anyValue]
    refine (bind_intro (cellValue_coord (hp p (by simp)))).trans ?_
    exact (bind_intro ih).trans rfl

/-- Does the series keep its place? -/
def keeps (ws : Sheet) (h : Pos) (c : List Pos) : Bool :=
  (h :: c).any fun p => (ws.cells p.1 p.2).truthy

theorem blankHeader_eq {ws : Sheet} {h : Pos} {v : PVal} {c : List Pos} (hh : 1 ≤ h.1 ∧ 1 ≤ h.2)
    (hv : ComposedCells v c) (hc : Positive c) :
    Params.blankHeader ws (.str (coordStr h.1 h.2)) v = .ok (!keeps ws h c) := by
  unfold Params.blankHeader
  refine (bind_intro (cellValue_coord hh)).trans ?_
  rcases hv with rfl | ⟨rfl, rfl⟩
  · refine (bind_intro (anyValue_names hc)).trans ?_
    simp [keeps, Bool.not_or]
    rfl
  · simp [keeps, PVal.truthy]
    rfl

/-- The entries a mask keeps. -/
def select {α : Type} : List Bool → List α → List α
  | b :: bs, x :: xs => if b then x :: select bs xs else select bs xs
  | _, _ => []

theorem removeBlankFrom_ok {ws : Sheet} {hs : List Pos} {vs : List PVal} {cs : List (List Pos)}
    (hv : List.Forall₂ ComposedCells vs cs) (hl : hs.length = cs.length) (hp : Positive hs)
    (hc : ∀ c ∈ cs, Positive c) :
    ∀ (p : Params) (i : Nat), PerSeries p (i + hs.length) →
      (∃ xs, p .headersCoord = .list xs) →
      ∃ q, Params.removeBlankFrom ws p i (List.zip (names hs) vs) = .ok q ∧
        (∀ n, p n = .none → q n = .none) ∧
        ∀ n xs, p n = .list xs →
          q n = .list (xs.take i ++ select (List.zipWith (keeps ws) hs cs) (xs.drop i)) := by
  induction hv generalizing hs with
  | nil =>
    intro p i hw _
    have : hs = [] := List.length_eq_zero_iff.1 hl
    subst this
    refine ⟨p, rfl, fun _ h => h, fun n xs h => ?_⟩
    rcases hw n with h' | ⟨ys, h', hly⟩
    · rw [h] at h'; cases h'
    · rw [h] at h'
      cases h'
      rw [h]
      congr 1
      rw [List.take_of_length_le (by simpa using hly.le)]
      simp [select]
  | @cons v c vs cs h1 h2 ih =>
    intro p i hw hh
    cases hs with
    | nil => simp at hl
    | cons h hs =>
      have ih := @ih hs (by simpa using hl) (fun x hx => hp x (List.mem_cons_of_mem _ hx))
        (fun x hx => hc x (List.mem_cons_of_mem _ hx))
      have hb := blankHeader_eq (ws := ws) (hp h (by simp)) h1 (hc c (by simp))
      simp only [names, List.map_cons, List.zip_cons_cons] at ih ⊢
      rw [Params.removeBlankFrom, hb]
      cases hk : keeps ws h c with
      | true =>
        simp only [Bool.not_true]
        obtain ⟨q, hq, hq1, hq2⟩ := ih p (i + 1) (by
          have : i + 1 + hs.length = i + (h :: hs).length := by simp; omega
          rw [this]; exact hw) hh
        refine ⟨q, hq, hq1, fun n xs hx => ?_⟩
        rw [hq2 n xs hx]
        have hxl : xs.length = i + (h :: hs).length := by
          rcases hw n with h' | ⟨ys, h', hly⟩
          · rw [hx] at h'; cases h'
          · rw [hx] at h'; cases h'; exact hly
        have hlt : i < xs.length := by rw [hxl]; simp
        congr 1
        rw [List.take_succ_eq_append_getElem hlt, List.drop_eq_getElem_cons hlt,
          List.zipWith_cons_cons, hk, select, if_pos rfl, List.append_assoc]
        rfl
      | false =>
        simp only [Bool.not_false]
        obtain ⟨xs0, hx0⟩ := hh
        have hnum := num_perSeries hw hx0 (by decide)
        obtain ⟨p', hp'⟩ := (C38_index p _ i hnum).1 (by simp)
        obtain ⟨_, _, hw', _, _⟩ := C38_other_series p p' _ i hw hnum hp'
        rw [hp']
        simp only
        have hpe : ∀ n xs, p n = .list xs → p' n = .list (xs.eraseIdx i) := by
          intro n xs hx
          have hxl : xs.length = i + (h :: hs).length := by
            rcases hw n with h' | ⟨ys, h', hly⟩
            · rw [hx] at h'; cases h'
            · rw [hx] at h'; cases h'; exact hly
          unfold Params.removeSeries at hp'
          rw [hnum] at hp'
          simp only [List.length_cons] at hp'
          rw [if_neg (by omega)] at hp'
          cases hp'
          simp only [hx, Params.eraseAt]
          rw [if_pos (by rw [hxl]; simp)]
        obtain ⟨q, hq, hq1, hq2⟩ := ih p' i (by
          have : i + (h :: hs).length - 1 = i + hs.length := by simp
          rw [this] at hw'; exact hw') ⟨_, hpe _ _ hx0⟩
        refine ⟨q, hq, fun n hn => hq1 n ?_, fun n xs hx => ?_⟩
        · rw [C38_nothing_else p p' _ i hnum hp' n (by intro vs hvs; rw [hn] at hvs; cases hvs), hn]
        · rw [hq2 n _ (hpe n xs hx)]
          have hxl : xs.length = i + (h :: hs).length := by
            rcases hw n with h' | ⟨ys, h', hly⟩
            · rw [hx] at h'; cases h'
            · rw [hx] at h'; cases h'; exact hly
          have hlt : i < xs.length := by rw [hxl]; simp
          congr 1
          rw [List.drop_eq_getElem_cons hlt]
          have e : xs.eraseIdx i = xs.take i ++ xs.drop (i + 1) := List.eraseIdx_eq_take_drop_succ ..
          rw [e, List.take_append_of_le_length (by simp; omega), List.take_take, Nat.min_self,
            List.drop_append, List.drop_eq_nil_of_le (by simp), List.zipWith_cons_cons, hk, select,
            if_neg (by simp), List.length_take, Nat.min_eq_left hlt.le, Nat.sub_self,
            List.drop_zero, List.nil_append]

theorem select_length {α : Type} (bs : List Bool) (xs : List α) (h : bs.length = xs.length) :
    (select bs xs).length = ((List.range bs.length).filter fun i => bs.getD i false).length := by
  induction bs generalizing xs with
  | nil => cases xs <;> rfl
  | cons b bs ih =>
    cases xs with
    | nil => simp at h
    | cons x xs =>
      have ih := ih xs (by simpa using h)
      rw [List.length_cons, List.range_succ_eq_map, List.filter_cons, List.filter_map,
        select]
      have : (fun i => (b :: bs).getD i false) ∘ Nat.succ = fun i => bs.getD i false := by
        funext i; simp
      rw [this]
      cases b <;> simp [ih]

theorem select_get {α : Type} (bs : List Bool) (xs : List α) (h : bs.length = xs.length) (k i : Nat)
    (hk : ((List.range bs.length).filter fun i => bs.getD i false)[k]? = some i) :
    (select bs xs)[k]? = xs[i]? := by
  induction bs generalizing xs k i with
  | nil => simp at hk
  | cons b bs ih =>
    cases xs with
    | nil => simp at h
    | cons x xs =>
      rw [List.length_cons, List.range_succ_eq_map, List.filter_cons, List.filter_map] at hk
      have e : (fun i => (b :: bs).getD i false) ∘ Nat.succ = fun i => bs.getD i false := by
        funext i; simp
      rw [e] at hk
      have hx : bs.length = xs.length := by simpa using h
      cases b with
      | true =>
        simp only [List.getD_cons_zero, if_true] at hk
        cases k with
        | zero => simp at hk; subst hk; simp [select]
        | succ k =>
          simp only [List.getElem?_cons_succ, List.getElem?_map, Option.map_eq_some_iff] at hk
          obtain ⟨j, hj, rfl⟩ := hk
          simp [select, ih xs hx k j hj]
      | false =>
        simp only [List.getD_cons_zero, Bool.false_eq_true, if_false, List.getElem?_map,
          Option.map_eq_some_iff] at hk
        obtain ⟨j, hj, rfl⟩ := hk
        simp [select, ih xs hx k j hj]

open Classical in
/-- `remove_blank_headers(ws)`: it succeeds, and the series that remain are those whose header cell
or one of whose composed header cells has a value, in their order and with all their parameters. -/
theorem C39_remaining (ws : Sheet) (p : Params) (hs : List Pos) (vs : List PVal)
    (cs : List (List Pos)) (hp : PerSeries p hs.length)
    (hh : p .headersCoord = .list (names hs)) (hc : p .composedHeadersCoord = .list vs)
    (hv : List.Forall₂ ComposedCells vs cs) (h1 : Positive hs) (h2 : ∀ c ∈ cs, Positive c) :
    ∃ q, Params.removeBlankHeaders ws p = .ok q ∧
      ∀ kept, kept = (List.range hs.length).filter (fun i => ∃ cell ∈ hs.getD i (1, 1) :: cs.getD i [],
          ¬ BlankValue (ws.cells cell.1 cell.2)) →
        q.num = some kept.length ∧ PerSeries q kept.length ∧
        ∀ k i, kept[k]? = some i → q.series k = p.series i := by
  have hlc : hs.length = cs.length := by
    rcases hp .composedHeadersCoord with h | ⟨ws', h, hl⟩
    · rw [hc] at h; cases h
    · rw [hc] at h
      cases h
      rw [← hl]
      exact hv.length_eq
  obtain ⟨q, hq, hq1, hq2⟩ := removeBlankFrom_ok (ws := ws) hv hlc h1 h2 p 0
    (by simpa using hp) ⟨_, hh⟩
  refine ⟨q, ?_, ?_⟩
  · unfold Params.removeBlankHeaders
    rw [hh, hc]
    exact hq
  rintro kept rfl
  generalize hm : List.zipWith (keeps ws) hs cs = mask at hq2
  have hml : mask.length = hs.length := by rw [← hm]; simp [hlc]
  have hkept : (List.range hs.length).filter (fun i => decide (∃ cell ∈ hs.getD i (1, 1) :: cs.getD i [],
      ¬ BlankValue (ws.cells cell.1 cell.2))) =
      (List.range mask.length).filter fun i => mask.getD i false := by
    rw [hml]
    refine List.filter_congr fun i hi => ?_
    have hi : i < hs.length := List.mem_range.1 hi
    have hi' : i < cs.length := by omega
    rw [← hm, Bool.eq_iff_iff, decide_eq_true_iff]
    simp only [List.getD_eq_getElem?_getD, List.getElem?_zipWith, List.getElem?_eq_getElem hi,
      List.getElem?_eq_getElem hi', Option.getD_some, keeps, List.any_eq_true, blankValue_iff,
      Bool.not_eq_false]
  rw [hkept]
  have hper : PerSeries q ((List.range mask.length).filter fun i => mask.getD i false).length := by
    intro n
    rcases hp n with h | ⟨xs, h, hl⟩
    · exact Or.inl (hq1 n h)
    · right
      refine ⟨_, hq2 n xs h, ?_⟩
      simpa using select_length mask xs (by rw [hml, hl])
  refine ⟨num_perSeries hper (hq2 _ _ hh) (by decide), hper, ?_⟩
  intro k i hk
  refine seriesDict_congr (fun n => ?_) (fun n hn => ?_) _
  · rcases hp n with h | ⟨xs, h, hl⟩
    · rw [h, hq1 n h]
    · rw [h, hq2 n xs h]; rfl
  · rcases hp n with h | ⟨xs, h, hl⟩
    · rw [h] at hn; cases hn
    · rw [h, hq2 n xs h]
      simp only [Params.index, List.take_zero, List.nil_append, List.drop_zero]
      rw [select_get mask xs (by rw [hml, hl]) k i hk]

/-- The hypotheses are met; the first of two series has a blank header and goes. -/
example : Sample.pair .headersCoord = .list (names [(1, 2), (1, 3)]) ∧
    List.Forall₂ ComposedCells [.none, .none] [[], []] ∧
    ∃ q, Params.removeBlankHeaders
        ⟨c!"Data", fun r c => if r = 1 ∧ c = 3 then .str c!"Wheat" else .none, 12, 3⟩ Sample.pair = .ok q ∧
      q .headersCoord = .list [.str c!"C1"] ∧ q .dataEnds = .list [.int 12] :=
  ⟨rfl, .cons (Or.inr ⟨rfl, rfl⟩) (.cons (Or.inr ⟨rfl, rfl⟩) .nil), _, rfl, rfl, rfl⟩

/-! ### C43: completeness -/

theorem completeFrom_true {p : Params} {num : Option Nat} {ns : List Name} :
    p.completeFrom num ns = .ok true ↔ ∀ n ∈ ns, p.completeAt num n = .ok true := by
  induction ns with
  | nil => simp [Params.completeFrom]
  | cons n ns ih =>
    rw [Params.completeFrom]
    simp only [List.mem_cons, forall_eq_or_imp]
    cases h : p.completeAt num n with
    | error e => simp
    | ok b => cases b <;> simp [ih]

/-- C43, the part that holds: an object (of lists and missing values) reported complete has no
missing parameter, and each non-optional parameter has one entry per series, except the time header.
Missing: the entries of the time header (`C43_time_header_violated`). -/
theorem C43_complete_partial (p : Params) (N : Nat) (hN : p.num = some N)
    (hp : ∀ n, p n = .none ∨ ∃ vs, p n = .list vs) (h : p.isComplete = .ok true) :
    p.getMissings = [] ∧
      (∀ n, n ∉ optionalNames → n ≠ .timeHeaderCoord → ∃ vs, p n = .list vs ∧ vs.length = N) ∧
      ∃ vs, p .timeHeaderCoord = .list vs ∧ min 2 N ≤ vs.length := by
  unfold Params.isComplete at h
  rw [hN, completeFrom_true] at h
  have key : ∀ n, n ∉ optionalNames → ∃ vs, p n = .list vs ∧
      (n ≠ .timeHeaderCoord → vs.length = N) ∧ (n = .timeHeaderCoord → min 2 N ≤ vs.length) := by
    intro n hn
    have h' := h n (Name.mem_all n)
    unfold Params.completeAt at h'
    rw [if_neg (by simpa using hn)] at h'
    rcases hp n with hv | ⟨vs, hv⟩
    · rw [hv] at h'; simp [PVal.isNone] at h'
    · refine ⟨vs, hv, ?_, ?_⟩
      · intro hne
        rw [hv] at h'
        simp only [PVal.isNone, Bool.false_eq_true, if_false, Params.len, if_neg hne,
          Except.ok.injEq, decide_eq_true_iff] at h'
        simpa using h'
      · rintro rfl
        rw [hv] at h'
        simpa [PVal.isNone, Params.len] using h'
  refine ⟨?_, fun n hn hne => ?_, ?_⟩
  · unfold Params.getMissings
    rw [List.filter_eq_nil_iff]
    intro n _ hm
    unfold Params.isMissing at hm
    rw [Bool.and_eq_true] at hm
    have hn : n ∉ optionalNames := by
      intro hn
      have : hasNone (validValues n) = true := by
        revert hn
        cases n <;> decide
      rw [this] at hm
      simp at hm
    obtain ⟨vs, hv, _⟩ := key n hn
    rw [hv] at hm
    simp [PVal.isNone] at hm
  · obtain ⟨vs, hv, h1, _⟩ := key n hn
    exact ⟨vs, hv, h1 hne⟩
  · obtain ⟨vs, hv, _, h2⟩ := key .timeHeaderCoord (by decide)
    exact ⟨vs, hv, h2 rfl⟩

/-- The converse, where it holds: an object whose parameters have one entry per series, with nothing
missing, is reported complete. -/
theorem C43_converse_partial (p : Params) (N : Nat) (hp : PerSeries p N) (hN : p.num = some N)
    (hm : p.getMissings = []) (hmv : p .missingValue ≠ .none) : p.isComplete = .ok true := by
  unfold Params.isComplete
  rw [hN, completeFrom_true]
  intro n _
  unfold Params.completeAt
  by_cases hn : n ∈ optionalNames
  · rw [if_pos (by simpa using hn)]
  · rw [if_neg (by simpa using hn)]
    have hv : ∃ vs, p n = .list vs ∧ vs.length = N := by
      refine (hp n).resolve_left fun h => ?_
      unfold Params.getMissings at hm
      rw [List.filter_eq_nil_iff] at hm
      apply hm n (Name.mem_all n)
      unfold Params.isMissing
      rw [h]
      have hne : n ≠ .missingValue := by rintro rfl; exact hmv h
      revert hn hne
      cases n <;> decide
    obtain ⟨vs, hv, hl⟩ := hv
    rw [hv]
    simp only [PVal.isNone, Bool.false_eq_true, if_false, Params.len, hl]
    split
    · simp
    · simp

/-- The dictionary of `C43_time_header_violated`: three headers, the same time header cell given
twice, everything else given. -/
def threeSeries : PDict :=
  [(.known .headersCoord, .str c!"B1-D1"), (.known .dataStarts, .int 2),
   (.known .frequency, .str c!"M"), (.known .timeHeaderCoord, .list [.str c!"A1", .str c!"A1"]),
   (.known .continuity, .bool true), (.known .blankRows, .bool false),
   (.known .missings, .bool false), (.known .timeComposed, .bool false)]

/-- C43, violated: an object is reported complete although its last series has no time header. -/
theorem C43_time_header_violated :
    ∃ p, Params.new (.dict threeSeries) = .ok p ∧ p.isComplete = .ok true ∧ p.num = some 3 ∧
      p .timeHeaderCoord = .list [.str c!"A1", .str c!"A1"] ∧
      p.series 2 = .error .indexError := ⟨_, rfl, rfl, rfl, rfl, rfl⟩

/-- C43, converse violated: an object is built in which nothing is missing but which is not
complete, because a list of the wrong length is accepted. -/
theorem C43_converse_violated :
    ∃ p, Params.new (.dict ((threeSeries.put (.known .timeHeaderCoord) (.str c!"A1")).put
        (.known .continuity) (.list [.bool true, .bool false]))) = .ok p ∧
      p.getMissings = [] ∧ p.isComplete = .ok false ∧ p.num = some 3 ∧
      p.series 2 = .error .indexError := ⟨_, rfl, rfl, rfl, rfl, rfl⟩

/-- An object with one time header for all series: complete. -/
example : ∃ p, Params.new (.dict (threeSeries.put (.known .timeHeaderCoord) (.str c!"A1"))) = .ok p ∧
    p.isComplete = .ok true ∧ p.getMissings = [] := ⟨_, rfl, rfl, rfl⟩

/-! ### C44: building again from an object -/

theorem get?_map (p : Params) (ns : List Name) (n : Name) (hn : n ∈ ns) :
    PDict.get? (ns.map fun n => (Key.known n, p n)) n = some (p n) := by
  induction ns with
  | nil => simp at hn
  | cons m ns ih =>
    rw [List.map_cons, PDict.get?]
    by_cases e : m = n
    · subst e; simp
    · rw [if_neg (fun e' => e (by cases e'; rfl))]
      exact ih ((List.mem_cons.1 hn).resolve_left fun e' => e e'.symm)

theorem get?_toDict (p : Params) (n : Name) : p.toDict.get? n = some (p n) :=
  get?_map p _ n (Name.mem_all n)

theorem toDict_distinct (p : Params) : DistinctKeys p.toDict := by
  unfold DistinctKeys Params.toDict
  rw [List.map_map]
  show (Name.all.map fun n => Key.known n).Nodup
  decide

/-- The context of a built object is a list with an entry per series. -/
theorem built_context {d : PDict} {p : Params} {N : Nat} (hd : DistinctKeys d) (hd0 : d ≠ [])
    (h : Params.new (.dict d) = .ok p) (hN : p.num = some N) (h1 : 1 ≤ N) :
    ∃ x xs, p .context = .list (x :: xs) := by
  obtain ⟨d1, d2, d3, d4, ps, thc', multi, n, hb⟩ := ofDict_ok (new_dict_ok h hd0)
  obtain ⟨N', rfl, hN', _⟩ := hb.num_eq hd
  rw [hN] at hN'
  simp at hN'
  subst hN'
  obtain ⟨k, rfl⟩ : ∃ k, N = k + 1 := ⟨N - 1, by omega⟩
  have hr := hb.result .context
  rw [applyOptional_get?] at hr
  split at hr
  · rw [applyGeneric_none h1 (by decide), List.replicate_succ] at hr
    exact ⟨_, _, hr⟩
  next hf =>
  have hf : d4.falsy .context = false := by
    rw [Bool.and_eq_true] at hf
    simpa [optionalNames] using hf
  unfold PDict.falsy at hf
  cases h4 : d4.get? .context with
  | none => rw [h4] at hf; simp at hf
  | some v =>
    rw [h4] at hf hr
    simp only [Bool.not_eq_false'] at hf
    simp only [Option.getD_some] at hr
    cases h3 : d3.get? .context with
    | none =>
      rw [(applyEach_get? hb.applied .context).2 h3] at h4
      cases h4
    | some v3 =>
      obtain ⟨v', ha, h4'⟩ := (applyEach_get? hb.applied .context).1 _ h3
      rw [h4] at h4'
      cases h4'
      have ha : applyGeneric v3 (some (k + 1)) (validValues .context) = v := by
        simpa [applyToAll] using ha
      have hl : ∃ ws, v = .list ws := by
        cases v3 with
        | list xs =>
          rcases (Decidable.em (xs.length ≠ 1 ∨ k + 1 ≤ 1)) with hx | hx
          · rw [applyGeneric_list hx] at ha; exact ⟨_, ha.symm⟩
          · have : xs.length = 1 := by omega
            obtain ⟨x, rfl⟩ := List.length_eq_one_iff.1 this
            rw [applyGeneric_one h1] at ha
            exact ⟨_, ha.symm⟩
        | none => rw [applyGeneric_none h1 (by decide)] at ha; exact ⟨_, ha.symm⟩
        | _ => rw [applyGeneric_single h1 rfl rfl] at ha; exact ⟨_, ha.symm⟩
      obtain ⟨ws, rfl⟩ := hl
      cases ws with
      | nil => simp [PVal.truthy] at hf
      | cons x xs => exact ⟨x, xs, hr⟩

theorem new_params {p : Params} {N : Nat} (hN : p.num = some N) (h1 : 1 ≤ N) :
    Params.new (.params p) = Params.new (.dict p.toDict) := by
  obtain ⟨k, rfl⟩ : ∃ k, N = k + 1 := ⟨N - 1, by omega⟩
  simp only [Params.new, hN]
  rw [if_neg]
  intro h
  have := congrArg List.length h
  simp [Params.toDict, Name.all] at this

theorem applyGeneric_ne_none {v : PVal} {N : Nat} {vs : List Valid} (h1 : 1 ≤ N)
    (hv : v ≠ .none) : applyGeneric v (some N) vs ≠ .none := by
  cases v with
  | none => exact absurd rfl hv
  | list xs =>
    rcases (Decidable.em (xs.length ≠ 1 ∨ N ≤ 1)) with hx | hx
    · rw [applyGeneric_list hx]; simp
    · have : xs.length = 1 := by omega
      obtain ⟨x, rfl⟩ := List.length_eq_one_iff.1 this
      rw [applyGeneric_one h1]; simp
  | _ => rw [applyGeneric_single h1 rfl rfl]; simp

/-- C44, violated: no object built from a dictionary is accepted by the constructor. -/
theorem C44_rebuild_violated (d : PDict) (p : Params) (N : Nat) (hd : DistinctKeys d) (hd0 : d ≠ [])
    (h : Params.new (.dict d) = .ok p) (hN : p.num = some N) (h1 : 1 ≤ N) :
    ∃ e, Params.new (.params p) = .error e := by
  rw [new_params hN h1]
  obtain ⟨x, xs, hc⟩ := built_context hd hd0 h hN h1
  cases hq : Params.new (.dict p.toDict) with
  | error e => exact ⟨e, rfl⟩
  | ok q =>
    exfalso
    have hm := PDict.mem_of_get? (get?_toDict p .context)
    obtain ⟨n, hn, hv⟩ := C33_only_valid p.toDict q (toDict_distinct p) hq _ _ hm
    cases hn
    rw [hc] at hv
    rcases hv with hv | hv
    · cases hv
    · rcases hv with ⟨_, ⟨kvs, hv, _⟩ | hv⟩ | ⟨hv, _⟩
      · cases hv
      · cases hv
      · exact hv rfl

/-- With its time header in place, such an object is reported as invalid parameters. -/
theorem C44_invalid_parameter (d : PDict) (p : Params) (N : Nat) (hd : DistinctKeys d) (hd0 : d ≠ [])
    (h : Params.new (.dict d) = .ok p) (hN : p.num = some N) (h1 : 1 ≤ N)
    (ht : p .timeHeaderCoord ≠ .none) :
    Params.new (.params p) = .error .invalidParameter := by
  rw [new_params hN h1]
  obtain ⟨x, xs, hc⟩ := built_context hd hd0 h hN h1
  obtain ⟨d1, d2, d3, d4, ps, thc', multi, n, hb⟩ := ofDict_ok (new_dict_ok h hd0)
  obtain ⟨N', rfl, hN', _⟩ := hb.num_eq hd
  rw [hN] at hN'
  simp at hN'
  subst hN'
  have e1 : p .headersCoord ≠ .none := by
    rw [hb.p_headers]
    exact applyGeneric_ne_none h1 (by simp [headersOf])
  have e2 : p .dataStarts ≠ .none := by
    cases hv : d.get? .dataStarts with
    | none =>
      have := (C31_critical_missing d hd0).2 (Or.inr (Or.inr (Or.inl (Or.inl hv))))
      rw [h] at this; cases this
    | some v =>
      have hvn : v ≠ .none := by
        rintro rfl
        have := (C31_critical_missing d hd0).2 (Or.inr (Or.inr (Or.inl (Or.inr hv))))
        rw [h] at this; cases this
      have h3 : d3.get? .dataStarts = some v := by
        rw [hb.get?_untouched (Or.inl (by decide)), hv]
      rw [hb.value_of h3 rfl (Or.inl (by decide))]
      exact applyGeneric_ne_none h1 hvn
  obtain ⟨ss, e3⟩ : ∃ ss : List Str, p .frequency = .list (ss.map .str) := by
    obtain ⟨f, f', _, hf, _, h3⟩ := hb.get?_frequency
    rw [hb.value_of h3 rfl (Or.inl (by decide))]
    rcases curateFreq_ok.1 hf with ⟨s, _, rfl⟩ | ⟨ss, _, rfl⟩
    · refine ⟨List.replicate N (freqTranslate (upper s)), ?_⟩
      rw [applyGeneric_single h1 rfl rfl, List.map_replicate]
    · rcases (Decidable.em (ss.length ≠ 1 ∨ N ≤ 1)) with hx | hx
      · refine ⟨ss.map fun s => freqTranslate (upper s), ?_⟩
        rw [applyGeneric_list (by simpa using hx), List.map_map]
        rfl
      · have : ss.length = 1 := by omega
        obtain ⟨s, rfl⟩ := List.length_eq_one_iff.1 this
        refine ⟨List.replicate N (freqTranslate (upper s)), ?_⟩
        rw [List.map_cons, List.map_nil, applyGeneric_one h1, List.map_replicate]
  refine C33_invalid_value p.toDict (toDict_distinct p) ?_ ?_ (Or.inr ⟨ss, ?_⟩) .context _
    (get?_toDict p .context) (by rw [hc]; simp) ?_
  · have e4 : p .frequency ≠ .none := by rw [e3]; simp
    intro m hm hmiss
    have : p m = .none := by
      rcases hmiss with hmiss | hmiss <;> rw [get?_toDict] at hmiss
      · cases hmiss
      · simpa using hmiss
    simp only [List.mem_cons, List.not_mem_nil, or_false] at hm
    rcases hm with rfl | rfl | rfl | rfl
    · exact ht this
    · exact e1 this
    · exact e2 this
    · exact e4 this
  · intro kv hkv
    unfold Params.toDict at hkv
    rw [List.mem_map] at hkv
    obtain ⟨m, _, rfl⟩ := hkv
    exact ⟨m, rfl⟩
  · rw [get?_toDict, e3]
  · rw [hc]
    rintro (⟨_, ⟨kvs, hv, _⟩ | hv⟩ | ⟨hv, _⟩)
    · cases hv
    · cases hv
    · exact hv rfl

example : ∃ p, Params.new (.dict Sample.two) = .ok p ∧ p.num = some 2 ∧
    p .timeHeaderCoord = .list [.str c!"A1", .str c!"A1"] := ⟨_, rfl, rfl, rfl⟩

end Xls
