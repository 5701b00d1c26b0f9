/-
Lemmas about the extraction of values: rows, filling of implicit missing values.
-/
import Verif.Lemmas.GetData
import Verif.Lemmas.CleanRun
import Mathlib.Data.List.TakeWhile

set_option autoImplicit false

namespace Xls
open Spec

/-! ### Rows -/

theorem read_axis {s : Sheet} {al : Align} {hr hc pos : Int} (h1 : 1 ≤ hr) (h2 : 1 ≤ hc)
    (h3 : 1 ≤ pos) : s.read (axisCell al hr hc pos).1 (axisCell al hr hc pos).2 =
      .ok (timeCell s al hr hc pos) := by
  rw [axisCell_eq]
  unfold Sheet.read timeCell
  rw [if_pos]
  unfold rowOf colOf
  constructor <;> split <;> assumption

theorem intRange_map_cells (s : Sheet) (al : Align) (hr hc lo hi : Int) :
    (intRange lo (hi + 1)).map (timeCell s al hr hc) = cellsAlong s al hr hc lo hi := by
  unfold intRange cellsAlong
  rw [List.map_map]; rfl

theorem rowEntries_of {ext : Ext} {sp : SParams} {s : Sheet} {hr hc : Int}
    (g : Int → Option (Option Num)) : ∀ (is : List Int),
    (∀ i ∈ is, rowEntry ext sp s hr hc i = match g i with
      | none => .error .exception
      | some x => .ok x) →
    ((∃ i ∈ is, g i = none) → rowEntries ext sp s hr hc is = .error .exception) ∧
    ((∀ i ∈ is, g i ≠ none) →
      rowEntries ext sp s hr hc is = .ok (is.filterMap fun i => (g i).join))
  | [], _ => ⟨by rintro ⟨i, hi, _⟩; simp at hi, fun _ => rfl⟩
  | i :: is, h => by
    obtain ⟨ih1, ih2⟩ := rowEntries_of g is fun j hj => h j (List.mem_cons_of_mem _ hj)
    have hi := h i List.mem_cons_self
    unfold rowEntries
    rw [hi]
    cases hg : g i with
    | none =>
      refine ⟨fun _ => rfl, fun hn => absurd hg (hn i List.mem_cons_self)⟩
    | some x =>
      dsimp only
      refine ⟨?_, fun hn => ?_⟩
      · rintro ⟨j, hj, hn⟩
        rcases List.mem_cons.1 hj with rfl | hj
        · rw [hg] at hn; cases hn
        · rw [ih1 ⟨j, hj, hn⟩]
      · rw [ih2 fun j hj => hn j (List.mem_cons_of_mem _ hj), List.filterMap_cons, hg]
        cases x <;> rfl

/-- The last step of `_get_values`. -/
def finish (ext : Ext) (sp : SParams) (s : Sheet) (last : Int) (xs : List Num) :
    Except Err (List (List Num)) :=
  if sp.missings = true then
    match cellIn (.str c!"Implicit") sp.missingValue with
    | .error e => .error e
    | .ok implicit =>
      if implicit = true ∧ sp.frequency.length = 1 then
        if xs = [] then .error .indexError
        else
          match timeHeaderCell sp.timeHeader with
          | .error e => .error e
          | .ok (tr, tc) =>
            match fillValues ext sp.frequency
                ((cellsAlong s sp.alignment tr tc sp.dataStarts last).zip xs) none with
            | .error e => .error e
            | .ok ys => .ok [ys]
      else .ok ((dealt sp.frequency xs).map Prod.snd)
  else .ok ((dealt sp.frequency xs).map Prod.snd)

theorem timeCells_eq (sp : SParams) (s : Sheet) (tr tc lo hi : Int) :
    timeCells sp s tr tc (intRange lo (hi + 1)) = cellsAlong s sp.alignment tr tc lo hi := by
  rw [← intRange_map_cells]
  unfold timeCells
  apply List.map_congr_left
  intro i _
  rw [axisCell_eq]; rfl

theorem getValues_eq {ext : Ext} {sp : SParams} {s : Sheet} {hr hc last : Int}
    (hd : DataCells sp hr hc last) (hf : sp.frequency ≠ []) :
    getValues ext sp s = match rowEntries ext sp s hr hc (intRange sp.dataStarts (last + 1)) with
      | .error e => .error e
      | .ok xs => finish ext sp s last xs := by
  unfold getValues
  rw [if_neg (by rcases hd.aligned with h | h <;> rw [h] <;> simp), hd.header, hd.ends]
  dsimp only
  rw [valuesLoop_eq ext sp s hr hc hf _ [] [] 0 (.inr rfl)]
  cases rowEntries ext sp s hr hc (intRange sp.dataStarts (last + 1)) with
  | error e => rfl
  | ok xs =>
    dsimp only
    rw [dealAll_eq hf]
    unfold finish
    by_cases hm : sp.missings = true
    · rw [if_pos hm, if_pos hm]
      cases cellIn (.str c!"Implicit") sp.missingValue with
      | error e => rfl
      | ok b =>
        dsimp only
        by_cases hb : b = true ∧ sp.frequency.length = 1
        · rw [if_pos hb, if_pos hb]
          obtain ⟨c, hc'⟩ := List.length_eq_one_iff.1 hb.2
          rw [hc', dealt_single]
          by_cases hx : xs = []
          · rw [if_pos hx, if_pos hx]
          · rw [if_neg hx, if_neg hx]
            dsimp only
            cases timeHeaderCell sp.timeHeader with
            | error e => rfl
            | ok p => dsimp only; rw [timeCells_eq]; rfl
        · rw [if_neg hb, if_neg hb]
    · rw [if_neg hm, if_neg hm]

theorem strip_eq_nil (s : Str) : strip s = [] ↔ s.all isSpace = true := by
  unfold strip lstrip
  rw [List.reverse_eq_nil_iff, List.dropWhile_eq_nil_iff, List.all_eq_true]
  constructor
  · intro h x hx
    by_contra hne
    have h2 : ∀ y ∈ List.dropWhile isSpace s, isSpace y = true := by
      intro y hy; exact h y (List.mem_reverse.2 hy)
    have h3 : s.dropWhile isSpace = [] := by
      cases hd : s.dropWhile isSpace with
      | nil => rfl
      | cons a l =>
        have := List.head_dropWhile_not isSpace (l := s) (by rw [hd]; simp)
        simp only [hd, List.head_cons] at this
        have h4 := h2 a (by rw [hd]; simp)
        rw [h4] at this; cases this
    rw [List.dropWhile_eq_nil_iff] at h3
    exact hne (h3 x hx)
  · intro h x hx
    rw [List.mem_reverse] at hx
    exact h x ((List.dropWhile_sublist isSpace).subset hx)

theorem blankToNone_eq (c : Cell) : blankToNone c = blankAsNothing c := by
  cases c with
  | str s =>
    unfold blankToNone blankAsNothing
    by_cases h : strip s = []
    · simp only [h, (strip_eq_nil s).1 h, if_true]
    · have : ¬ s.all isSpace = true := fun h' => h ((strip_eq_nil s).2 h')
      simp only [h, this, if_false]
      simp
  | _ => rfl

/-! ### Filling -/

theorem dayTicks_eq (n us : Nat) : dayTicks n us = n * 86400000000 + us := by
  induction us with
  | zero => simp only [dayTicks, usPerDay, Nat.add_zero]
  | succ us ih => simp only [dayTicks, ih]; omega

theorem ticks_lt {a b : Time} (ha : ValidTime a) (hb : ValidTime b) (h : a < b) :
    ticks a < ticks b := by
  have h : Time.lt a b := h
  have := ha.month_pos; have := ha.month_le; have := hb.month_pos; have := hb.month_le
  have := ha.day_pos; have := hb.day_pos
  have h1 := ha.day_le; have h2 := hb.day_le
  have h3 := monthLength_le a.year a.month; have h4 := monthLength_le b.year b.month
  have := ha.us_lt; have := hb.us_lt
  unfold ticks
  rw [dayTicks_eq, dayTicks_eq]
  unfold Time.lt at h
  have e : ∀ x y u v : Nat, u < 86400000000 → v < 86400000000 → x < y ∨ (x = y ∧ u < v) →
      x * 86400000000 + u < y * 86400000000 + v := by intros; omega
  apply e _ _ _ _ ha.us_lt hb.us_lt
  omega

theorem fillGap_fuel {freq : Str} {obs : Time} (ho : ValidTime obs) : ∀ (n m : Nat) (exp : Time),
    ValidTime exp → ticks obs - ticks exp ≤ n → ticks obs - ticks exp ≤ m →
    fillGap freq obs n exp = fillGap freq obs m exp := by
  have stop : ∀ (k : Nat) (exp : Time), ValidTime exp → ticks obs - ticks exp = 0 →
      fillGap freq obs k exp = .ok (0, exp) := by
    intro k exp hv h
    cases k with
    | zero => rfl
    | succ k =>
      unfold fillGap
      rw [if_neg]
      intro hlt
      have := ticks_lt hv ho hlt
      omega
  intro n
  induction n with
  | zero =>
    intro m exp hv h1 _
    rw [stop m exp hv (by omega)]; rfl
  | succ n ih =>
    intro m exp hv h1 h2
    cases m with
    | zero => rw [stop _ exp hv (by omega), stop _ exp hv (by omega)]
    | succ m =>
      unfold fillGap
      by_cases hlt : exp < obs
      · rw [if_pos hlt, if_pos hlt]
        cases hi : incrementTime exp 1 freq with
        | error e => rfl
        | ok exp' =>
          have hv' := incrementTime_valid hv hi
          have := ticks_lt hv hv' (incrementTime_lt hv (by omega) hi)
          have := ticks_lt hv ho hlt
          dsimp only
          rw [ih m exp' hv' (by omega) (by omega)]
      · rw [if_neg hlt, if_neg hlt]

/-- One step of the inner loop. -/
theorem fillGap_step {freq : Str} {obs exp exp' : Time} (ho : ValidTime obs) (hv : ValidTime exp)
    (hlt : exp < obs) (hi : incrementTime exp 1 freq = .ok exp') :
    fillGap freq obs (ticks obs - ticks exp) exp =
      match fillGap freq obs (ticks obs - ticks exp') exp' with
      | .error e => .error e
      | .ok (n, t) => .ok (n + 1, t) := by
  have h1 := ticks_lt hv ho hlt
  have hv' := incrementTime_valid hv hi
  have h2 := ticks_lt hv hv' (incrementTime_lt hv (by omega) hi)
  obtain ⟨k, hk⟩ : ∃ k, ticks obs - ticks exp = k + 1 := ⟨ticks obs - ticks exp - 1, by omega⟩
  rw [hk]
  conv_lhs => unfold fillGap
  rw [if_pos hlt, hi]
  dsimp only
  rw [fillGap_fuel ho k (ticks obs - ticks exp') exp' hv' (by omega) (by omega)]
  cases fillGap freq obs (ticks obs - ticks exp') exp' <;> rfl

theorem fillGap_done {freq : Str} {obs exp : Time} (h : ¬ exp < obs) (n : Nat) :
    fillGap freq obs n exp = .ok (0, exp) := by
  cases n with
  | zero => rfl
  | succ n => unfold fillGap; rw [if_neg h]

/-- The entries of a grid, given the observations on it. -/
def expand : List Time → List (Time × Num) → List Num
  | [], _ => []
  | _ :: gs, [] => .nan :: expand gs []
  | g :: gs, (t, x) :: rest => if g = t then x :: expand gs rest else .nan :: expand gs ((t, x) :: rest)

theorem fillOne_step {ext : Ext} {freq : Str} {t exp exp' : Time} (ht : ValidTime t)
    (hv : ValidTime exp) (hlt : exp < t) (hi : incrementTime exp 1 freq = .ok exp') :
    fillOne ext freq (.dt t) (some exp) = match fillOne ext freq (.dt t) (some exp') with
      | .error e => .error e
      | .ok (n, u) => .ok (n + 1, u) := by
  have h1 : arrowGet ext (.dt t) = .ok t := rfl
  unfold fillOne
  rw [h1]
  dsimp only
  rw [Option.getD_some, Option.getD_some, fillGap_step ht hv hlt hi]
  cases fillGap freq t (ticks t - ticks exp') exp' with
  | error e => rfl
  | ok p =>
    obtain ⟨n, u⟩ := p
    dsimp only
    cases incrementTime u 1 freq <;> rfl

theorem fillOne_hit {ext : Ext} {freq : Str} {t t' : Time} (exp : Option Time)
    (he : exp.getD t = t) (hi : incrementTime t 1 freq = .ok t') :
    fillOne ext freq (.dt t) exp = .ok (0, t') := by
  have h1 : arrowGet ext (.dt t) = .ok t := rfl
  unfold fillOne
  rw [h1]
  dsimp only
  rw [he, fillGap_done (Time.lt_irrefl t)]
  dsimp only
  rw [hi]

theorem fillValues_step {ext : Ext} {freq : Str} {t exp exp' : Time} {x : Num}
    {rest : List (Cell × Num)} (ht : ValidTime t) (hv : ValidTime exp) (hlt : exp < t)
    (hi : incrementTime exp 1 freq = .ok exp') :
    fillValues ext freq ((.dt t, x) :: rest) (some exp) =
      match fillValues ext freq ((.dt t, x) :: rest) (some exp') with
      | .error e => .error e
      | .ok ys => .ok (.nan :: ys) := by
  rw [fillValues, fillValues, fillOne_step ht hv hlt hi]
  cases fillOne ext freq (.dt t) (some exp') with
  | error e => rfl
  | ok p =>
    obtain ⟨n, u⟩ := p
    dsimp only
    cases fillValues ext freq rest (some u) with
    | error e => rfl
    | ok ys => simp [List.replicate_succ]

theorem fillValues_hit {ext : Ext} {freq : Str} {t t' : Time} {x : Num}
    {rest : List (Cell × Num)} (exp : Option Time) (he : exp.getD t = t)
    (hi : incrementTime t 1 freq = .ok t') :
    fillValues ext freq ((.dt t, x) :: rest) exp =
      match fillValues ext freq rest (some t') with
      | .error e => .error e
      | .ok ys => .ok (x :: ys) := by
  rw [fillValues, fillOne_hit exp he hi]
  dsimp only
  cases fillValues ext freq rest (some t') with
  | error e => rfl
  | ok ys => simp

/-- Consecutive valid dates are reached by single increments. -/
theorem consecutive_increment {freq : Str} {a b : Time} {r : List Time}
    (hv : ∀ t ∈ a :: b :: r, ValidTime t) (hc : Consecutive freq (a :: b :: r)) :
    incrementTime a 1 freq = .ok b := by
  rw [← nextPeriod_iff (hv a (by simp))]
  obtain ⟨⟨sh, h1, h2⟩, _⟩ := hc
  exact ⟨hv b (by simp), sh, h1, h2⟩

theorem consecutive_lt {freq : Str} : ∀ {g : Time} {gs : List Time},
    (∀ t ∈ g :: gs, ValidTime t) → Consecutive freq (g :: gs) → ∀ t ∈ gs, g < t
  | g, [], _, _, t, ht => by cases ht
  | g, b :: r, hv, hc, t, ht => by
    have h1 := incrementTime_lt (hv g (by simp)) (by omega) (consecutive_increment hv hc)
    rcases List.mem_cons.1 ht with rfl | ht
    · exact h1
    · exact Time.lt_trans h1
        (consecutive_lt (fun t ht => hv t (List.mem_cons_of_mem _ ht)) hc.2 t ht)

theorem fillValues_grid {ext : Ext} {freq : Str} : ∀ (gs : List Time) (g : Time)
    (obs : List (Time × Num)),
    (∀ t ∈ g :: gs, ValidTime t) → Consecutive freq (g :: gs) →
    (∀ z, (g :: gs).getLast? = some z → ∃ z', incrementTime z 1 freq = .ok z') →
    (obs.map Prod.fst).Sublist (g :: gs) → (obs.map Prod.fst).getLast? = (g :: gs).getLast? →
    fillValues ext freq (obs.map fun p => (Cell.dt p.1, p.2)) (some g) = .ok (expand (g :: gs) obs)
  | gs, g, [], _, _, _, _, hl => by
    simp only [List.map_nil, List.getLast?_nil] at hl
    rw [eq_comm, List.getLast?_eq_none_iff] at hl
    cases hl
  | [], g, (t, x) :: rest, hv, hc, hz, hs, hl => by
    obtain ⟨z', hz'⟩ := hz g rfl
    simp only [List.map_cons] at hs
    have h1 : t = g ∧ rest = [] := by
      cases hs with
      | cons _ h => cases h
      | cons_cons _ h => exact ⟨rfl, List.map_eq_nil_iff.1 (List.sublist_nil.1 h)⟩
    obtain ⟨rfl, rfl⟩ := h1
    simp only [List.map_cons, List.map_nil]
    rw [fillValues_hit (some t) rfl hz']
    simp [fillValues, expand]
  | g' :: gs, g, (t, x) :: rest, hv, hc, hz, hs, hl => by
    have hi := consecutive_increment hv hc
    have hv' : ∀ u ∈ g' :: gs, ValidTime u := fun u hu => hv u (List.mem_cons_of_mem _ hu)
    have hz' : ∀ z, (g' :: gs).getLast? = some z → ∃ z', incrementTime z 1 freq = .ok z' := by
      intro z h; exact hz z (by rw [List.getLast?_cons_cons]; exact h)
    rw [List.getLast?_cons_cons] at hl
    simp only [List.map_cons] at hs hl ⊢
    by_cases hgt : g = t
    · subst hgt
      have hs' : (rest.map Prod.fst).Sublist (g' :: gs) := by
        cases hs with
        | cons _ h => exact (List.sublist_cons_self _ _).trans h
        | cons_cons _ h => exact h
      rw [fillValues_hit (some g) rfl hi]
      cases rest with
      | nil =>
        simp only [List.map_nil, List.getLast?_singleton] at hl
        have : g ∈ g' :: gs := List.mem_of_getLast? hl.symm
        exact absurd (consecutive_lt hv hc g this) (Time.lt_irrefl g)
      | cons p rest =>
        simp only [List.map_cons] at hl
        rw [List.getLast?_cons_cons] at hl
        rw [fillValues_grid gs g' (p :: rest) hv' hc.2 hz' hs' (by simpa using hl)]
        simp [expand]
    · have hs' : ((t :: rest.map Prod.fst)).Sublist (g' :: gs) := by
        cases hs with
        | cons _ h => exact h
        | cons_cons _ h => exact absurd rfl hgt
      have htm : t ∈ g' :: gs := hs'.subset (by simp)
      rw [fillValues_step (hv t (List.mem_cons_of_mem _ htm)) (hv g (by simp))
        (consecutive_lt hv hc t htm) hi]
      have := fillValues_grid (ext := ext) gs g' ((t, x) :: rest) hv' hc.2 hz'
        (by simpa using hs') (by simpa using hl)
      simp only [List.map_cons] at this
      rw [this]
      simp [expand, hgt]

theorem expand_length : ∀ (gs : List Time) (obs : List (Time × Num)),
    (expand gs obs).length = gs.length
  | [], _ => rfl
  | _ :: gs, [] => by simp [expand, expand_length gs []]
  | g :: gs, (t, x) :: rest => by
    unfold expand
    split <;> simp [expand_length]

theorem expand_placed : ∀ (gs : List Time) (obs : List (Time × Num)),
    gs.Nodup → (obs.map Prod.fst).Sublist gs →
    (∀ t x, (t, x) ∈ obs → ∃ i : Nat, gs[i]? = some t ∧ (expand gs obs)[i]? = some x) ∧
    (∀ (i : Nat) t, gs[i]? = some t → t ∉ obs.map Prod.fst → (expand gs obs)[i]? = some .nan)
  | [], [], _, _ => ⟨(by intro t x h; cases h), (by intro i t h; simp at h)⟩
  | [], p :: obs, _, hs => by simp at hs
  | g :: gs, [], hn, _ => by
    refine ⟨by (intro t x h; cases h), ?_⟩
    have ih := (expand_placed gs [] (List.nodup_cons.1 hn).2 (List.nil_sublist _)).2
    intro i t h ht
    cases i with
    | zero => rfl
    | succ i => simpa [expand] using ih i t (by simpa using h) ht
  | g :: gs, (t, x) :: rest, hn, hs => by
    rw [List.nodup_cons] at hn
    simp only [List.map_cons] at hs
    unfold expand
    by_cases hgt : g = t
    · subst hgt
      rw [if_pos rfl]
      have hs' : (rest.map Prod.fst).Sublist gs := by
        cases hs with
        | cons _ h => exact (List.sublist_cons_self _ _).trans h
        | cons_cons _ h => exact h
      obtain ⟨i1, i2⟩ := expand_placed gs rest hn.2 hs'
      constructor
      · intro u y h
        rcases List.mem_cons.1 h with h | h
        · cases h; exact ⟨0, rfl, rfl⟩
        · obtain ⟨i, h1, h2⟩ := i1 u y h
          exact ⟨i + 1, by simpa using h1, by simpa using h2⟩
      · intro i u h hu
        simp only [List.map_cons, List.mem_cons, not_or] at hu
        cases i with
        | zero =>
          simp only [List.getElem?_cons_zero, Option.some.injEq] at h
          exact absurd h.symm hu.1
        | succ i => simpa using i2 i u (by simpa using h) hu.2
    · rw [if_neg hgt]
      have hs' : ((t :: rest.map Prod.fst)).Sublist gs := by
        cases hs with
        | cons _ h => exact h
        | cons_cons _ h => exact absurd rfl hgt
      obtain ⟨i1, i2⟩ := expand_placed gs ((t, x) :: rest) hn.2 (by simpa using hs')
      constructor
      · intro u y h
        obtain ⟨i, h1, h2⟩ := i1 u y h
        exact ⟨i + 1, by simpa using h1, by simpa using h2⟩
      · intro i u h hu
        cases i with
        | zero => rfl
        | succ i => simpa using i2 i u (by simpa using h) hu

theorem consecutive_nodup {freq : Str} : ∀ {gs : List Time},
    (∀ t ∈ gs, ValidTime t) → Consecutive freq gs → gs.Nodup
  | [], _, _ => List.nodup_nil
  | g :: gs, hv, hc => by
    rw [List.nodup_cons]
    refine ⟨fun h => Time.lt_irrefl g (consecutive_lt hv hc g h), ?_⟩
    refine consecutive_nodup (freq := freq) (fun t ht => hv t (List.mem_cons_of_mem _ ht)) ?_
    cases gs with
    | nil => trivial
    | cons b r => exact hc.2

end Xls
