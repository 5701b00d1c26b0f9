/-
Lemmas about the period ranges of series with several frequencies.
-/
import Verif.Lemmas.PeriodRange
import Verif.Lemmas.GetData2

set_option autoImplicit false

namespace Xls

open Spec

/-! ### The cells looked at -/

theorem cellsAlong_take (s : Sheet) (al : Align) (hr hc lo hi : Int) {k : Nat}
    (h : lo + k ≤ hi + 1) :
    cellsAlong s al hr hc lo (lo + k - 1) = (cellsAlong s al hr hc lo hi).take k := by
  unfold cellsAlong
  rw [← List.map_take, List.take_range]
  congr 2
  omega

theorem cellsAlong_drop (s : Sheet) (al : Align) (hr hc lo hi : Int) {k : Nat} :
    cellsAlong s al hr hc (lo + k) hi = (cellsAlong s al hr hc lo hi).drop k := by
  unfold cellsAlong
  apply List.ext_getElem?
  intro i
  rw [List.getElem?_drop, List.getElem?_map, List.getElem?_map]
  by_cases h : i < (hi + 1 - (lo + k)).toNat
  · rw [List.getElem?_range h, List.getElem?_range (by omega)]
    simp only [Option.map_some, Option.some.injEq]
    congr 1
    push_cast
    omega
  · rw [List.getElem?_eq_none (by simpa using h), List.getElem?_eq_none (by
      rw [List.length_range]; omega)]
    rfl

/-- Last position of the row (column) of the time index that exists in the sheet. -/
def lastPos (s : Sheet) (al : Align) : Int := if al = .vertical then s.maxRow else s.maxCol

theorem timeLine_eq {s : Sheet} {al : Align} {hr hc : Int} (hal : al = .vertical ∨ al = .horizontal)
    : timeLine s al hr hc = cellsAlong s al hr hc 1 (lastPos (s.touch hr hc) al) := by
  unfold timeLine
  rw [← intRange_map_cells]
  rcases hal with rfl | rfl <;> rfl

theorem pySlice_line {s : Sheet} {al : Align} {hr hc a b : Int}
    (hal : al = .vertical ∨ al = .horizontal) (ha : 0 ≤ a) (hb : 0 ≤ b) (hm : b ≤ lastPos s al) :
    pySlice (timeLine s al hr hc) a b = cellsAlong s al hr hc (a + 1) b := by
  have hm' : b ≤ lastPos (s.touch hr hc) al := by
    refine Int.le_trans hm ?_
    unfold lastPos Sheet.touch
    split
    · exact Int.le_max_left _ _
    · exact Int.le_max_left _ _
  rw [timeLine_eq hal]
  unfold pySlice
  simp only [if_neg (show ¬ b < 0 by omega), if_neg (show ¬ a < 0 by omega)]
  rw [← cellsAlong_take (hi := lastPos (s.touch hr hc) al) s al hr hc 1 (by omega), ← cellsAlong_drop]
  congr 1 <;> omega

/-! ### The letters of the cycle -/

/-- The first `n` letters of the cycle. -/
def cycleLetters (pattern : Str) (n : Nat) : Str :=
  (List.range n).map fun k => pattern[k % pattern.length]?.getD ' '

theorem cycleLetters_length (pattern : Str) (n : Nat) : (cycleLetters pattern n).length = n := by
  simp [cycleLetters]

theorem cycleLetters_get {pattern : Str} (hp : pattern ≠ []) {n k : Nat} (h : k < n) :
    (cycleLetters pattern n)[k]? = pattern[k % pattern.length]? := by
  unfold cycleLetters
  rw [List.getElem?_map, List.getElem?_range h]
  have hl : k % pattern.length < pattern.length := Nat.mod_lt _ (List.length_pos_iff.2 hp)
  simp [List.getElem?_eq_getElem hl]

theorem cycleLetters_take {pattern : Str} (hp : pattern ≠ []) {n : Nat} (h : pattern.length ≤ n) :
    (cycleLetters pattern n).take pattern.length = pattern := by
  apply List.ext_getElem?
  intro i
  by_cases hi : i < pattern.length
  · rw [List.getElem?_take_of_lt hi, cycleLetters_get hp (by omega), Nat.mod_eq_of_lt hi]
  · rw [List.getElem?_eq_none (by rw [List.length_take, cycleLetters_length]; omega),
      List.getElem?_eq_none (by omega)]

theorem freqEnd_spec {ini stop : Int} {len n : Nat} (hlen : 0 < len) (hn : stop - ini + 1 = n)
    (h0 : 0 < n) : 0 < freqEnd ini stop len ∧ freqEnd ini stop len ≤ len ∧
      ∃ q, n = q * len + freqEnd ini stop len := by
  unfold freqEnd
  rw [hn]
  have e : ((n : Int) % (len : Int)).toNat = n % len := by omega
  rw [e]
  have hlt := Nat.mod_lt n hlen
  have hd := Nat.div_add_mod n len
  rw [Nat.mul_comm] at hd
  dsimp only
  split
  · next h =>
    refine ⟨hlen, Nat.le_refl _, n / len - 1, ?_⟩
    have hq : 0 < n / len := by
      rcases Nat.eq_zero_or_pos (n / len) with hz | hz
      · rw [hz] at hd; omega
      · exact hz
    obtain ⟨q, hq'⟩ : ∃ q, n / len = q + 1 := ⟨n / len - 1, by omega⟩
    rw [hq'] at hd ⊢
    rw [Nat.add_mul] at hd
    simp only [Nat.add_sub_cancel]
    omega
  · next h => exact ⟨by omega, by omega, n / len, hd.symm⟩

theorem cycleLetters_reverse_get {pattern : Str} (hp : pattern ≠ []) {n k : Nat} (h : k < n) :
    (cycleLetters pattern n).reverse[k]? = pattern[(n - 1 - k) % pattern.length]? := by
  rw [List.getElem?_reverse (by rw [cycleLetters_length]; exact h), cycleLetters_length,
    cycleLetters_get hp (by omega)]

/-- Read backwards the cycle has the letters paired with the last cells of a vertical series. -/
theorem cycle_end_vertical {pattern : Str} {q fe n : Nat} (hp : pattern ≠ [])
    (h1 : fe ≤ pattern.length) (hn : n = q * pattern.length + fe) :
    (cycleLetters pattern n).reverse.take fe = (pattern.take fe).reverse := by
  apply List.ext_getElem?
  intro i
  by_cases hi : i < fe
  · rw [List.getElem?_take_of_lt hi, cycleLetters_reverse_get hp (by omega),
      List.getElem?_reverse (by rw [List.length_take]; omega), List.length_take,
      List.getElem?_take_of_lt (by omega)]
    congr 1
    have : n - 1 - i = (fe - 1 - i) + q * pattern.length := by omega
    rw [this, Nat.add_mul_mod_self_right, Nat.mod_eq_of_lt (by omega)]
    omega
  · rw [List.getElem?_eq_none (by rw [List.length_take, List.length_reverse]; omega),
      List.getElem?_eq_none (by rw [List.length_reverse, List.length_take]; omega)]

/-- The same for horizontal series, over a whole cycle. -/
theorem cycle_end_horizontal {pattern : Str} {q fe n : Nat} (hp : pattern ≠ []) (h0 : 0 < fe)
    (h1 : fe ≤ pattern.length) (hn : n = q * pattern.length + fe) (hlen : pattern.length ≤ n) :
    (cycleLetters pattern n).reverse.take pattern.length =
      ((pattern.drop (fe - 1) ++ pattern.take fe).reverse).take pattern.length := by
  apply List.ext_getElem?
  intro i
  by_cases hi : i < pattern.length
  · rw [List.getElem?_take_of_lt hi, List.getElem?_take_of_lt hi,
      cycleLetters_reverse_get hp (by omega), List.reverse_append]
    by_cases hf : i < fe
    · rw [List.getElem?_append_left (by rw [List.length_reverse, List.length_take]; omega),
        List.getElem?_reverse (by rw [List.length_take]; omega), List.length_take,
        List.getElem?_take_of_lt (by omega)]
      congr 1
      have : n - 1 - i = (fe - 1 - i) + q * pattern.length := by omega
      rw [this, Nat.add_mul_mod_self_right, Nat.mod_eq_of_lt (by omega)]
      omega
    · rw [List.getElem?_append_right (by rw [List.length_reverse, List.length_take]; omega),
        List.length_reverse, List.length_take,
        List.getElem?_reverse (by rw [List.length_drop]; omega), List.length_drop,
        List.getElem?_drop]
      congr 1
      obtain ⟨q', rfl⟩ : ∃ q', q = q' + 1 := ⟨q - 1, by
        rcases Nat.eq_zero_or_pos q with hq | hq
        · rw [hq, Nat.zero_mul] at hn
          omega
        · omega⟩
      rw [Nat.add_mul] at hn
      have : n - 1 - i = (fe + pattern.length - 1 - i) + q' * pattern.length := by omega
      rw [this, Nat.add_mul_mod_self_right, Nat.mod_eq_of_lt (by omega)]
      omega
  · rw [List.getElem?_eq_none (by rw [List.length_take, List.length_reverse]; omega),
      List.getElem?_eq_none (by rw [List.length_take]; omega)]

/-! ### First and last date of a letter -/

/-- Dates with the letters of the cycle. -/
def lettered (pattern : Str) (ts : List Time) : List (Time × Char) :=
  ts.zip (cycleLetters pattern ts.length)

theorem ofLetter_lettered {pattern : Str} (hp : pattern ≠ []) (c : Char) (ts : List Time) :
    ofLetter pattern c ts = ((lettered pattern ts).filter fun p => p.2 = c).map Prod.fst := by
  have : lettered pattern ts =
      ts.zipIdx.map fun p => (p.1, pattern[p.2 % pattern.length]?.getD ' ') := by
    unfold lettered
    apply List.ext_getElem?
    intro i
    by_cases hi : i < ts.length
    · have hl : i % pattern.length < pattern.length := Nat.mod_lt _ (List.length_pos_iff.2 hp)
      have e1 : (ts.zip (cycleLetters pattern ts.length))[i]? =
          some (ts[i], pattern[i % pattern.length]) := by
        rw [List.getElem?_zip_eq_some]
        refine ⟨List.getElem?_eq_getElem hi, ?_⟩
        rw [cycleLetters_get hp hi, List.getElem?_eq_getElem hl]
      rw [e1, List.getElem?_map, List.getElem?_zipIdx, List.getElem?_eq_getElem hi]
      simp [List.getElem?_eq_getElem hl]
    · rw [List.getElem?_eq_none (by rw [List.length_zip]; omega),
        List.getElem?_eq_none (by rw [List.length_map, List.length_zipIdx]; omega)]
  rw [this, List.filter_map, List.map_map]
  unfold ofLetter
  have hfun : (fun p : Time × Nat => decide (letterAt pattern p.2 = some c)) =
      (fun p : Time × Char => decide (p.2 = c)) ∘
        fun p : Time × Nat => (p.1, pattern[p.2 % pattern.length]?.getD ' ') := by
    funext p
    have hl : p.2 % pattern.length < pattern.length := Nat.mod_lt _ (List.length_pos_iff.2 hp)
    simp [letterAt, List.getElem?_eq_getElem hl]
  rw [hfun]
  rfl

theorem capture_dt (f : Char) (ps : List (Time × Char)) :
    capture f (ps.map fun p => (.dt p.1, p.2)) =
      match ps.find? fun p => p.2 = f with
      | some p => .dt p.1
      | none => .none := by
  have hkeep : ∀ (ps : List (Time × Char)) t,
      (ps.map fun p => (Cell.dt p.1, p.2)).foldl
        (fun found p => if p.2 = f ∧ found.truthy = false then p.1 else found) (.dt t) = .dt t := by
    intro ps t
    induction ps with
    | nil => rfl
    | cons p ps ih => simpa [Cell.truthy] using ih
  unfold capture
  induction ps with
  | nil => rfl
  | cons p ps ih =>
    rw [List.map_cons, List.foldl_cons, List.find?_cons]
    by_cases h : p.2 = f
    · simp only [h, Cell.truthy, and_self, if_true, decide_true]
      exact hkeep ps p.1
    · simp only [h, false_and, if_false, decide_false]
      exact ih

theorem find?_take_some {α : Type} {p : α → Bool} {l : List α} {k : Nat} {x : α}
    (h : (l.take k).find? p = some x) : l.find? p = some x := by
  rw [← List.take_append_drop k l, List.find?_append, h]
  rfl

theorem exists_find?_of_mem {f : Char} {l : List (Time × Char)} {k : Nat}
    (h : f ∈ (l.map Prod.snd).take k) : ∃ x, (l.take k).find? (fun p => p.2 = f) = some x := by
  rw [← List.map_take, List.mem_map] at h
  obtain ⟨y, hy, rfl⟩ := h
  rw [← Option.isSome_iff_exists, List.find?_isSome]
  exact ⟨y, hy, by simp⟩

/-- The first cells, up to one of the letter, give the first date of the letter. -/
theorem capture_first {pattern : Str} {f : Char} {ts : List Time} {k : Nat} (hp : pattern ≠ [])
    (h : f ∈ (cycleLetters pattern ts.length).take k) :
    ∃ t, (ofLetter pattern f ts).head? = some t ∧
      capture f (((lettered pattern ts).take k).map fun p => (.dt p.1, p.2)) = .dt t := by
  have hs : (lettered pattern ts).map Prod.snd = cycleLetters pattern ts.length := by
    unfold lettered
    exact List.map_snd_zip (by rw [cycleLetters_length])
  rw [← hs] at h
  obtain ⟨x, hx⟩ := exists_find?_of_mem h
  refine ⟨x.1, ?_, by rw [capture_dt, hx]⟩
  rw [ofLetter_lettered hp, List.head?_map, List.head?_filter, find?_take_some hx]
  rfl

/-- The last cells, down to one of the letter, give the last date of the letter. -/
theorem capture_last {pattern : Str} {f : Char} {ts : List Time} {k : Nat} (hp : pattern ≠ [])
    (h : f ∈ (cycleLetters pattern ts.length).reverse.take k) :
    ∃ t, (ofLetter pattern f ts).getLast? = some t ∧
      capture f (((lettered pattern ts).reverse.take k).map fun p => (.dt p.1, p.2)) = .dt t := by
  have hs : (lettered pattern ts).reverse.map Prod.snd =
      (cycleLetters pattern ts.length).reverse := by
    unfold lettered
    rw [List.map_reverse, List.map_snd_zip (by rw [cycleLetters_length])]
  rw [← hs] at h
  obtain ⟨x, hx⟩ := exists_find?_of_mem h
  refine ⟨x.1, ?_, by rw [capture_dt, hx]⟩
  rw [ofLetter_lettered hp, List.getLast?_map, ← List.head?_reverse, ← List.filter_reverse,
    List.head?_filter, find?_take_some hx]
  rfl

/-! ### All letters -/

theorem rangesOf_run (ext : Ext) {pattern : Str} {ts : List Time} {starts ends : List (Cell × Char)}
    (fs : List Char) (h : ∀ f ∈ fs, ∃ a z, (ofLetter pattern f ts).head? = some a ∧
      (ofLetter pattern f ts).getLast? = some z ∧ capture f starts = .dt a ∧ capture f ends = .dt z ∧
      (∀ u ∈ ofLetter pattern f ts, ValidTime u) ∧ PeriodRun [f] (ofLetter pattern f ts) ∧
      PeriodStart [f] a ∧ Representable a ∧ Representable z) :
    rangesOf ext starts ends fs =
      .ok (fs.map fun f => ⟨indexFreq [f], ofLetter pattern f ts⟩) := by
  induction fs with
  | nil => rfl
  | cons f fs ih =>
    obtain ⟨a, z, h1, h2, h3, h4, h5, h6, h7, h8, h9⟩ := h f (by simp)
    unfold rangesOf
    rw [h3, h4, dateRange_run ext h5 h6 h1 h2 h7 h8 h9]
    dsimp only
    rw [ih fun g hg => h g (List.mem_cons_of_mem _ hg)]
    rfl

theorem zip_dt_map (ts : List Time) (fs : List Char) :
    (ts.map Cell.dt).zip fs = (ts.zip fs).map fun p => (Cell.dt p.1, p.2) := by
  rw [List.zip_map_left]
  rfl

theorem zip_take_right {α β : Type} (as : List α) (bs : List β) {k : Nat} (h : as.length ≤ k) :
    as.zip bs = as.zip (bs.take k) := by
  induction as generalizing bs k with
  | nil => rfl
  | cons a as ih => cases bs with
    | nil => simp
    | cons b bs => cases k with
      | zero => simp at h
      | succ k => simp only [List.take_succ_cons, List.zip_cons_cons]; rw [← ih bs (by simpa using h)]

theorem zip_take_take {α β : Type} (as : List α) (bs : List β) (k : Nat) :
    (as.take k).zip (bs.take k) = (as.zip bs).take k := by
  exact List.take_zipWith.symm

theorem zip_reverse_eq {α β : Type} (as : List α) (bs : List β) (h : as.length = bs.length) :
    as.reverse.zip bs.reverse = (as.zip bs).reverse := by
  exact (List.reverse_zipWith h).symm

end Xls
