/-
C40-C42: consistency, alignment and context.
-/
import Verif.Props.ParamsHeaders
import Mathlib.Data.List.Perm.Basic

set_option autoImplicit false

namespace Xls
open Spec

/-! ### Positions of headers -/

theorem setLen_one {xs : List Int} : setLen xs = 1 ↔ xs ≠ [] ∧ ∀ x ∈ xs, ∀ y ∈ xs, x = y := by
  unfold setLen
  rw [List.length_eq_one_iff]
  constructor
  · rintro ⟨a, h⟩
    have key : ∀ x ∈ xs, x = a := by
      intro x hx
      have : x ∈ xs.dedup := List.mem_dedup.2 hx
      rw [h] at this
      simpa using this
    refine ⟨?_, fun x hx y hy => by rw [key x hx, key y hy]⟩
    rintro rfl
    simp at h
  · rintro ⟨hne, h⟩
    obtain ⟨a, rest, rfl⟩ := List.exists_cons_of_ne_nil hne
    refine ⟨a, ?_⟩
    have h1 : (a :: rest).dedup ≠ [] := by
      intro e
      have : a ∈ (a :: rest).dedup := List.mem_dedup.2 (by simp)
      rw [e] at this
      simp at this
    have h2 : ∀ x ∈ (a :: rest).dedup, x = a := fun x hx =>
      h x (List.mem_dedup.1 hx) a (by simp)
    have h3 := List.nodup_dedup (a :: rest)
    generalize (a :: rest).dedup = l at h1 h2 h3
    cases l with
    | nil => exact absurd rfl h1
    | cons b l =>
      have hb : b = a := h2 b (by simp)
      cases l with
      | nil => rw [hb]
      | cons c l =>
        have hc : c = a := h2 c (by simp)
        rw [List.nodup_cons] at h3
        exact absurd (by rw [hb, hc]; simp) h3.1

theorem setLen_full {xs : List Int} : setLen xs = xs.length ↔ xs.Nodup := by
  unfold setLen
  constructor
  · intro h
    rw [← List.dedup_eq_self]
    exact (List.dedup_sublist xs).eq_of_length h
  · intro h
    rw [List.dedup_eq_self.2 h]

/-- The positions as integers. -/
def asInts (ps : List Pos) : List (Int × Int) := ps.map fun p => ((p.1 : Int), (p.2 : Int))

theorem evidentlyVertical_iff {ps : List Pos} (hne : ps ≠ []) :
    evidentlyVertical (asInts ps) = true ↔ SpreadRow ps := by
  unfold evidentlyVertical asInts SpreadRow OneRow
  rw [Bool.and_eq_true, beq_iff_eq, beq_iff_eq, setLen_one, setLen_full]
  simp only [List.map_map, Function.comp_def]
  have e2 : (ps.map fun p => ((p.2 : Nat) : Int)).Nodup ↔ (ps.map (·.2)).Nodup := by
    rw [← List.nodup_map_iff (f := fun n : Nat => (n : Int)) (fun a b h => by simpa using h),
      List.map_map]
    rfl
  rw [e2]
  refine and_congr_left fun _ => ?_
  constructor
  · rintro ⟨_, h⟩
    obtain ⟨q, rest, rfl⟩ := List.exists_cons_of_ne_nil hne
    refine ⟨q.1, fun p hp => ?_⟩
    have := h p.1 (List.mem_map_of_mem (f := fun x : Pos => (x.1 : Int)) hp) q.1 (by simp)
    simpa using this
  · rintro ⟨r, h⟩
    refine ⟨by simpa using hne, ?_⟩
    intro x hx y hy
    simp only [List.mem_map] at hx hy
    obtain ⟨a, ha, rfl⟩ := hx
    obtain ⟨b, hb, rfl⟩ := hy
    rw [h a ha, h b hb]

theorem evidentlyHorizontal_iff {ps : List Pos} (hne : ps ≠ []) :
    evidentlyHorizontal (asInts ps) = true ↔ SpreadColumn ps := by
  unfold evidentlyHorizontal asInts SpreadColumn OneColumn
  rw [Bool.and_eq_true, beq_iff_eq, beq_iff_eq, setLen_one, setLen_full]
  simp only [List.map_map, Function.comp_def]
  have e2 : (ps.map fun p => ((p.1 : Nat) : Int)).Nodup ↔ (ps.map (·.1)).Nodup := by
    rw [← List.nodup_map_iff (f := fun n : Nat => (n : Int)) (fun a b h => by simpa using h),
      List.map_map]
    rfl
  rw [e2]
  refine and_congr_left fun _ => ?_
  constructor
  · rintro ⟨_, h⟩
    obtain ⟨q, rest, rfl⟩ := List.exists_cons_of_ne_nil hne
    refine ⟨q.2, fun p hp => ?_⟩
    have := h p.2 (List.mem_map_of_mem (f := fun x : Pos => (x.2 : Int)) hp) q.2 (by simp)
    simpa using this
  · rintro ⟨r, h⟩
    refine ⟨by simpa using hne, ?_⟩
    intro x hx y hy
    simp only [List.mem_map] at hx hy
    obtain ⟨a, ha, rfl⟩ := hx
    obtain ⟨b, hb, rfl⟩ := hy
    rw [h a ha, h b hb]

theorem spread_exclusive {ps : List Pos} (h2 : 2 ≤ ps.length) : ¬ (SpreadRow ps ∧ SpreadColumn ps) := by
  rintro ⟨⟨⟨r, h1⟩, _⟩, ⟨_, h3⟩⟩
  match ps, h2 with
  | a :: b :: rest, _ =>
    simp only [List.map_cons, List.nodup_cons, List.mem_cons] at h3
    exact h3.1 (Or.inl (by rw [h1 a (by simp), h1 b (by simp)]))

/-! ### C41: the alignment guess -/

theorem guess_large {ps : List Pos} (hp : Positive ps) (h2 : 2 ≤ ps.length)
    (hc : 4 ≤ ps.length ∨ consecutiveCells (names ps) = .ok true) :
    guessAlignment (names ps) = .ok (alignmentOf (asInts ps)) := by
  have hl : (names ps).length = ps.length := by simp [names]
  unfold guessAlignment
  rw [if_neg (by rw [hl]; omega)]
  have e : (if (names ps).length < 4 then consecutiveCells (names ps) else .ok true) =
      .ok true := by
    rcases hc with hc | hc
    · rw [if_neg (by rw [hl]; omega)]
    · rw [hc]; simp
  rw [e]
  simp only
  rw [cellsOf_names hp]
  rfl

theorem guess_small {ps : List Pos}
    (h : ps.length < 2 ∨ (ps.length < 4 ∧ consecutiveCells (names ps) = .ok false)) :
    guessAlignment (names ps) = .ok .none := by
  have hl : (names ps).length = ps.length := by simp [names]
  unfold guessAlignment
  rcases h with h | ⟨h1, h2⟩
  · rw [if_pos (by rw [hl]; omega)]
  · split
    · rfl
    · rw [if_pos (by rw [hl]; omega), h2]

theorem consecutive_spread_row {ps : List Pos} (hp : Positive ps) (h2 : 2 ≤ ps.length)
    (hs : SpreadRow ps) : consecutiveCells (names ps) = .ok true ↔ AlongRow ps := by
  obtain ⟨⟨r, hr⟩, _⟩ := hs
  constructor
  · intro h
    rcases (C65_consecutive_partial ps hp).2.1 (by
      rintro a b rest rfl
      left
      rw [hr a (by simp), hr b (by simp)]) h with h | ⟨r', c', h⟩
    · exact h
    · exfalso
      match ps, h2 with
      | a :: b :: rest, _ =>
        simp only [List.length_cons, List.range_succ_eq_map, List.map_cons, List.map_map] at h
        have e1 : a = (r' + 0, c') := (List.cons.inj h).1
        have e2 : b = (r' + 1, c') := (List.cons.inj (List.cons.inj h).2).1
        have := (hr a (by simp)).trans (hr b (by simp)).symm
        rw [e1, e2] at this
        simp at this
  · intro h
    exact (C65_consecutive_partial ps hp).1 (Or.inl h)

theorem consecutive_spread_column {ps : List Pos} (hp : Positive ps) (h2 : 2 ≤ ps.length)
    (hs : SpreadColumn ps) : consecutiveCells (names ps) = .ok true ↔ AlongColumn ps := by
  obtain ⟨⟨r, hr⟩, _⟩ := hs
  constructor
  · intro h
    rcases (C65_consecutive_partial ps hp).2.1 (by
      rintro a b rest rfl
      right
      rw [hr a (by simp), hr b (by simp)]) h with ⟨r', c', h⟩ | h
    · exfalso
      match ps, h2 with
      | a :: b :: rest, _ =>
        simp only [List.length_cons, List.range_succ_eq_map, List.map_cons, List.map_map] at h
        have e1 : a = (r', c' + 0) := (List.cons.inj h).1
        have e2 : b = (r', c' + 1) := (List.cons.inj (List.cons.inj h).2).1
        have := (hr a (by simp)).trans (hr b (by simp)).symm
        rw [e1, e2] at this
        simp at this
    · exact h
  · intro h
    exact (C65_consecutive_partial ps hp).1 (Or.inr h)

/-- When a vertical alignment is guessed: at least two headers in one row, each in its own column;
two or three headers must in addition be next to each other. -/
theorem C41_vertical (ps : List Pos) (hp : Positive ps) :
    guessAlignment (names ps) = .ok (.str c!"vertical") ↔
      2 ≤ ps.length ∧ SpreadRow ps ∧ (4 ≤ ps.length ∨ AlongRow ps) := by
  by_cases h2 : 2 ≤ ps.length
  · have hne : ps ≠ [] := by rintro rfl; simp at h2
    obtain ⟨b, hb⟩ := consecutive_total hp
    by_cases hc : 4 ≤ ps.length ∨ consecutiveCells (names ps) = .ok true
    · rw [guess_large hp h2 hc]
      unfold alignmentOf
      by_cases hv : SpreadRow ps
      · rw [if_pos ((evidentlyVertical_iff hne).2 hv)]
        simp only [h2, hv, true_and, true_iff]
        rcases hc with hc | hc
        · exact Or.inl hc
        · exact Or.inr ((consecutive_spread_row hp h2 hv).1 hc)
      · rw [if_neg (by rw [evidentlyVertical_iff hne]; exact hv)]
        constructor
        · intro h
          split at h <;> simp at h
        · rintro ⟨_, h, _⟩; exact absurd h hv
    · have hl : ¬ 4 ≤ ps.length := fun h => hc (Or.inl h)
      have hf : consecutiveCells (names ps) = .ok false := by
        cases b with
        | true => exact absurd (Or.inr hb) hc
        | false => exact hb
      rw [guess_small (Or.inr ⟨by omega, hf⟩)]
      constructor
      · intro h; cases h
      · rintro ⟨_, h, h4 | h4⟩
        · exact absurd h4 hl
        · rw [(consecutive_spread_row hp h2 h).2 h4] at hf; cases hf
  · rw [guess_small (Or.inl (by omega))]
    constructor
    · intro h; cases h
    · rintro ⟨h, _⟩; exact absurd h h2

/-- When a horizontal alignment is guessed. -/
theorem C41_horizontal (ps : List Pos) (hp : Positive ps) :
    guessAlignment (names ps) = .ok (.str c!"horizontal") ↔
      2 ≤ ps.length ∧ SpreadColumn ps ∧ (4 ≤ ps.length ∨ AlongColumn ps) := by
  by_cases h2 : 2 ≤ ps.length
  · have hne : ps ≠ [] := by rintro rfl; simp at h2
    obtain ⟨b, hb⟩ := consecutive_total hp
    by_cases hc : 4 ≤ ps.length ∨ consecutiveCells (names ps) = .ok true
    · rw [guess_large hp h2 hc]
      unfold alignmentOf
      by_cases hv : SpreadColumn ps
      · rw [if_neg (by
          rw [evidentlyVertical_iff hne]
          intro h
          exact spread_exclusive h2 ⟨h, hv⟩), if_pos ((evidentlyHorizontal_iff hne).2 hv)]
        simp only [h2, hv, true_and, true_iff]
        rcases hc with hc | hc
        · exact Or.inl hc
        · exact Or.inr ((consecutive_spread_column hp h2 hv).1 hc)
      · constructor
        · intro h
          split at h
          · simp at h
          · rw [if_neg (by rw [evidentlyHorizontal_iff hne]; exact hv)] at h
            simp at h
        · rintro ⟨_, h, _⟩; exact absurd h hv
    · have hl : ¬ 4 ≤ ps.length := fun h => hc (Or.inl h)
      have hf : consecutiveCells (names ps) = .ok false := by
        cases b with
        | true => exact absurd (Or.inr hb) hc
        | false => exact hb
      rw [guess_small (Or.inr ⟨by omega, hf⟩)]
      constructor
      · intro h; cases h
      · rintro ⟨_, h, h4 | h4⟩
        · exact absurd h4 hl
        · rw [(consecutive_spread_column hp h2 h).2 h4] at hf; cases hf
  · rw [guess_small (Or.inl (by omega))]
    constructor
    · intro h; cases h
    · rintro ⟨h, _⟩; exact absurd h h2

/-- Nothing else is ever guessed. -/
theorem C41_otherwise_none (ps : List Pos) (hp : Positive ps) :
    guessAlignment (names ps) = .ok (.str c!"vertical") ∨
      guessAlignment (names ps) = .ok (.str c!"horizontal") ∨
      guessAlignment (names ps) = .ok .none := by
  have hok : ∃ a, guessAlignment (names ps) = .ok a := by
    by_cases h2 : 2 ≤ ps.length
    · obtain ⟨b, hb⟩ := consecutive_total hp
      cases b with
      | true => exact ⟨_, guess_large hp h2 (Or.inr hb)⟩
      | false =>
        by_cases h4 : 4 ≤ ps.length
        · exact ⟨_, guess_large hp h2 (Or.inl h4)⟩
        · exact ⟨_, guess_small (Or.inr ⟨by omega, hb⟩)⟩
    · exact ⟨_, guess_small (Or.inl (by omega))⟩
  obtain ⟨a, ha⟩ := hok
  rcases guessAlignment_cases ha with rfl | rfl | rfl
  · exact Or.inr (Or.inr ha)
  · exact Or.inl ha
  · exact Or.inr (Or.inl ha)

theorem headers_are {d : PDict} {p : Params} {d1 d2 d3 d4 : PDict} {ps : List (List Str × PVal)}
    {thc' multi : PVal} {n : Option Nat} (hb : Built d p d1 d2 d3 d4 ps thc' multi n) {hc : PVal}
    {hs : List Pos} (hh : d.get? .headersCoord = some hc)
    (hu : unpackRanges hc = .ok (.list (names hs))) : ps.map (·.2) = names hs := by
  obtain ⟨us, h1, h2⟩ := processHeaders_ok (hb.processed hh)
  rw [hu] at h1
  cases h1
  rw [separateAll_names] at h2
  cases h2
  simp [names, Function.comp_def]

/-- Without a given alignment the series of a built object have the alignment guessed, if any. -/
theorem C41_object (d : PDict) (p : Params) (hc : PVal) (hs : List Pos) (N : Nat)
    (hd : DistinctKeys d) (h : Params.new (.dict d) = .ok p) (hN : p.num = some N) (h1 : 1 ≤ N)
    (hh : d.get? .headersCoord = some hc) (hu : StandsFor hc hs)
    (hp : Positive hs) (hm : Missing d .alignment) :
    (p .alignment = .list (List.replicate N (.str c!"vertical")) ↔
      2 ≤ hs.length ∧ SpreadRow hs ∧ (4 ≤ hs.length ∨ AlongRow hs)) ∧
    (p .alignment = .list (List.replicate N (.str c!"horizontal")) ↔
      2 ≤ hs.length ∧ SpreadColumn hs ∧ (4 ≤ hs.length ∨ AlongColumn hs)) ∧
    (p .alignment = .none ∨ p .alignment = .list (List.replicate N (.str c!"vertical")) ∨
      p .alignment = .list (List.replicate N (.str c!"horizontal"))) := by
  have hd0 : d ≠ [] := by rintro rfl; simp [PDict.get?] at hh
  obtain ⟨d1, d2, d3, d4, ps, thc', multi, n, hb⟩ := ofDict_ok (new_dict_ok h hd0)
  obtain ⟨N', rfl, hN', _⟩ := hb.num_eq hd
  rw [hN] at hN'
  simp at hN'
  subst hN'
  have hps := headers_are hb hh (unpackRanges_standsFor hu)
  obtain ⟨a, ha, h3⟩ : ∃ a, guessAlignment (names hs) = .ok a ∧ d3.get? .alignment = some a := by
    rcases hb.guessed.alignment with ⟨a, e, e', _⟩ | ⟨_, a, e, e'⟩
    · rw [hb.headers.others _ (by decide) (by decide) (by decide) (by decide),
        hb.get?_d1 (by decide) (by simp [useDefault])] at e
      rcases hm with hm | hm
      · rw [hm] at e; cases e
      · rw [hm] at e; cases e; cases e'
    · rw [hps] at e
      exact ⟨a, e, e'⟩
  have hpa : p .alignment = applyGeneric a (some N) (validValues .alignment) :=
    hb.value_of h3 rfl (Or.inl (by decide))
  obtain ⟨k, rfl⟩ : ∃ k, N = k + 1 := ⟨N - 1, by omega⟩
  rw [← C41_vertical hs hp, ← C41_horizontal hs hp, hpa, ha]
  rcases guessAlignment_cases ha with rfl | rfl | rfl
  · have e : applyGeneric .none (some (k + 1)) (validValues .alignment) = .none := rfl
    rw [e]
    simp
  · rw [applyGeneric_single h1 rfl rfl]
    simp [List.replicate_succ]
  · rw [applyGeneric_single h1 rfl rfl]
    simp [List.replicate_succ]

example : guessAlignment (names [(1, 2), (1, 4), (1, 7), (1, 3)]) = .ok (.str c!"vertical") ∧
    guessAlignment (names [(1, 2), (1, 4)]) = .ok .none ∧
    guessAlignment (names [(3, 2), (4, 2)]) = .ok (.str c!"horizontal") := ⟨rfl, rfl, rfl⟩

/-! ### C40: data start after the header -/

theorem assertAfter_ok {v : PVal} {x : Int} {xs : List Int} {k : Int}
    (hv : v = .int k) (h : assertAfter v (x :: xs) = .ok ()) : x < k := by
  subst hv
  simp only [assertAfter, gtInt, PVal.number] at h
  split at h
  · next hlt =>
    rw [decide_eq_true_iff] at hlt
    exact_mod_cast hlt
  · cases h

theorem consistency_ok {starts : PVal} {k : Int} {hs : List PVal} {al : Option PVal}
    (hk : FirstStart starts k) (h : checkConsistency starts hs al = .ok ()) :
    ∃ cs, cellsOf hs = .ok cs ∧
      (looksVertical cs al = true → ∀ c rest, cs = c :: rest → c.1 < k) ∧
      (looksHorizontal cs al = true → ∀ c rest, cs = c :: rest → c.2 < k) := by
  unfold checkConsistency at h
  obtain ⟨v, h1, h⟩ := bind_ok h
  obtain ⟨cs, h2, h⟩ := bind_ok h
  obtain ⟨u, h3, h4⟩ := bind_ok h
  have hv : v = .int k := by
    rcases hk with rfl | ⟨rest, rfl⟩ <;> cases h1 <;> rfl
  refine ⟨cs, h2, ?_, ?_⟩
  · rintro hl c rest rfl
    rw [assertIf, if_pos hl] at h3
    exact assertAfter_ok hv h3
  · rintro hl c rest rfl
    rw [assertIf, if_pos hl] at h4
    exact assertAfter_ok hv h4

theorem head_of_generic {xs : List PVal} {N : Nat} {vs : List Valid} {y : PVal} {ys : List PVal}
    (hl : xs.length ≤ N) (hN : xs ≠ [] ∨ N = 0)
    (h : applyGeneric (.list xs) (some N) vs = .list (y :: ys)) :
    ∃ rest, xs = y :: rest := by
  by_cases h1 : xs.length ≠ 1 ∨ N ≤ 1
  · rw [applyGeneric_list h1] at h
    cases h
    exact ⟨ys, rfl⟩
  · have h2 : xs.length = 1 := by omega
    obtain ⟨x, rfl⟩ := List.length_eq_one_iff.1 h2
    obtain ⟨k, rfl⟩ : ∃ k, N = k + 1 := ⟨N - 1, by omega⟩
    rw [applyGeneric_one (by omega)] at h
    simp only [List.replicate_succ, PVal.list.injEq, List.cons.injEq] at h
    exact ⟨[], by rw [h.1]⟩

theorem consistent_start {d : PDict} {p : Params} {starts : PVal} {k : Int} (hd : DistinctKeys d)
    (h : Params.new (.dict d) = .ok p) (hs : d.get? .dataStarts = some starts)
    (hk : FirstStart starts k) :
    ∃ hs cs N, p .headersCoord = applyGeneric (.list hs) (some N) (validValues .headersCoord) ∧
      hs.length ≤ N ∧ cellsOf hs = .ok cs ∧
      (looksVertical cs (d.get? .alignment) = true → ∀ c rest, cs = c :: rest → c.1 < k) ∧
      (looksHorizontal cs (d.get? .alignment) = true → ∀ c rest, cs = c :: rest → c.2 < k) := by
  have hd0 : d ≠ [] := by rintro rfl; simp [PDict.get?] at hs
  obtain ⟨d1, d2, d3, d4, ps, thc', multi, n, hb⟩ := ofDict_ok (new_dict_ok h hd0)
  obtain ⟨N', rfl, hN', hle⟩ := hb.num_eq hd
  obtain ⟨st, h1, h2⟩ := hb.guessed.consistent
  rw [hb.headers.others _ (by decide) (by decide) (by decide) (by decide),
    hb.get?_d1 (by decide) (by simp [useDefault]), hs] at h1
  simp at h1
  subst h1
  rw [hb.headers.others _ (by decide) (by decide) (by decide) (by decide),
    hb.get?_d1 (by decide) (by simp [useDefault])] at h2
  obtain ⟨cs, h3, h4⟩ := consistency_ok hk h2
  exact ⟨ps.map (fun q : List Str × PVal => q.2), cs, N', hb.p_headers, by simpa using hle, h3, h4⟩

theorem cellsOf_head {x : PVal} {xs : List PVal} {cs : List (Int × Int)}
    (h : cellsOf (x :: xs) = .ok cs) : ∃ c rest, cellOf x = .ok c ∧ cs = c :: rest := by
  rw [cellsOf] at h
  obtain ⟨c, h1, h⟩ := bind_ok h
  obtain ⟨rest, _, h⟩ := bind_ok h
  exact ⟨c, rest, h1, (pure_ok h).symm⟩

/-- With a given alignment the data start after the first header: below it for a vertical one, to
its right for a horizontal one. -/
theorem C40_given (d : PDict) (p : Params) (starts : PVal) (k : Int) (first : Pos)
    (others : List PVal) (hd : DistinctKeys d) (h : Params.new (.dict d) = .ok p)
    (hs : d.get? .dataStarts = some starts) (hk : FirstStart starts k)
    (hh : p .headersCoord = .list (.str (coordStr first.1 first.2) :: others))
    (hf : 1 ≤ first.1 ∧ 1 ≤ first.2) :
    (d.get? .alignment = some (.str c!"vertical") → (first.1 : Int) < k) ∧
    (d.get? .alignment = some (.str c!"horizontal") → (first.2 : Int) < k) := by
  obtain ⟨hs, cs, N, h1, h2, h3, h4, h5⟩ := consistent_start hd h hs hk
  rw [h1] at hh
  have hne : hs ≠ [] ∨ N = 0 := by
    by_contra hc
    simp only [not_or, not_not, ne_eq] at hc
    obtain ⟨rfl, hN⟩ := hc
    rw [applyGeneric_list (Or.inl (by simp))] at hh
    cases hh
  obtain ⟨rest, rfl⟩ := head_of_generic h2 hne hh
  obtain ⟨c, cs', h6, rfl⟩ := cellsOf_head h3
  rw [cellOf_coordStr hf.1 hf.2] at h6
  cases h6
  constructor
  · intro ha
    exact h4 (by rw [ha]; rfl) _ _ rfl
  · intro ha
    exact h5 (by rw [ha]; rfl) _ _ rfl

/-- Without a given alignment, the same holds when the headers show one: several headers in one row
(column), each in its own column (row). -/
theorem C40_evident (d : PDict) (p : Params) (starts : PVal) (k : Int) (first second : Pos)
    (others : List Pos) (hd : DistinctKeys d) (h : Params.new (.dict d) = .ok p)
    (hs : d.get? .dataStarts = some starts) (hk : FirstStart starts k)
    (ha : d.get? .alignment = none)
    (hh : p .headersCoord = .list (names (first :: second :: others)))
    (hp : Positive (first :: second :: others)) :
    (SpreadRow (first :: second :: others) → (first.1 : Int) < k) ∧
    (SpreadColumn (first :: second :: others) → (first.2 : Int) < k) := by
  obtain ⟨hs, cs, N, h1, h2, h3, h4, h5⟩ := consistent_start hd h hs hk
  rw [h1] at hh
  -- different headers are not a repeated one
  have key : SpreadRow (first :: second :: others) ∨ SpreadColumn (first :: second :: others) →
      hs = names (first :: second :: others) := by
    intro hsp
    by_cases hc : hs.length ≠ 1 ∨ N ≤ 1
    · rw [applyGeneric_list hc] at hh
      cases hh
      rfl
    · exfalso
      have h1' : hs.length = 1 := by omega
      obtain ⟨x, rfl⟩ := List.length_eq_one_iff.1 h1'
      obtain ⟨k, rfl⟩ : ∃ k, N = k + 2 := ⟨N - 2, by omega⟩
      rw [applyGeneric_one (by omega)] at hh
      simp only [List.replicate_succ, names, List.map_cons, PVal.list.injEq, List.cons.injEq] at hh
      obtain ⟨e1, e2, _⟩ := hh
      rw [e1] at e2
      simp only [PVal.str.injEq] at e2
      have p1 := hp first (by simp)
      have p2 := hp second (by simp)
      obtain ⟨r1, r2⟩ := coordStr_inj p1.1 p1.2 p2.1 p2.2 e2
      rcases hsp with ⟨_, hn⟩ | ⟨_, hn⟩
      · simp [r2] at hn
      · simp [r1] at hn
  constructor
  · intro hsp
    rw [key (Or.inl hsp), cellsOf_names hp] at h3
    cases h3
    refine h4 ?_ _ _ rfl
    rw [ha, looksVertical, Bool.and_eq_true]
    exact ⟨by simp, (evidentlyVertical_iff (by simp)).2 hsp⟩
  · intro hsp
    rw [key (Or.inr hsp), cellsOf_names hp] at h3
    cases h3
    refine h5 ?_ _ _ rfl
    rw [ha, looksHorizontal, Bool.and_eq_true]
    exact ⟨by simp, (evidentlyHorizontal_iff (by simp)).2 hsp⟩

/-- The check is skipped when the alignment is given as `None` or as a list: any start is
accepted. -/
theorem C40_skipped (k : Int) :
    (∃ p, Params.new (.dict ((Sample.two.put (.known .alignment) .none).put
      (.known .dataStarts) (.int k))) = .ok p) ∧
    ∃ p, Params.new (.dict ((Sample.two.put (.known .alignment) (.list [.str c!"vertical"])).put
      (.known .dataStarts) (.int k))) = .ok p := ⟨⟨_, rfl⟩, ⟨_, rfl⟩⟩

example : Params.new (.dict (Sample.two.put (.known .dataStarts) (.int 1))) =
      .error .assertionError ∧
    Params.new (.dict ((Sample.two.put (.known .alignment) (.str c!"vertical")).put
      (.known .dataStarts) (.list [.int 1, .int 5]))) = .error .assertionError ∧
    ∃ p, Params.new (.dict (Sample.two.put (.known .alignment) (.str c!"vertical"))) = .ok p :=
  ⟨rfl, rfl, _, rfl⟩

/-! ### C42: the context of a header -/

/-- The groups with their cells as the model has them. -/
def asContext (gs : List (Str × List Pos)) : List (Str × List PVal) :=
  gs.map fun g => (g.1, names g.2)

/-- Insertion, on groups. -/
def insertGroup (x : Str × List Pos) : List (Str × List Pos) → List (Str × List Pos)
  | [] => [x]
  | y :: ys => if x.2.length ≤ y.2.length then y :: insertGroup x ys else x :: y :: ys

theorem insertByLen_asContext (x : Str × List Pos) (ys : List (Str × List Pos)) :
    insertByLen (x.1, names x.2) (asContext ys) = asContext (insertGroup x ys) := by
  induction ys with
  | nil => rfl
  | cons y ys ih =>
    simp only [asContext, List.map_cons, insertByLen, insertGroup, names, List.length_map] at ih ⊢
    split
    · rw [ih]; rfl
    · rfl

theorem insertGroup_perm (x : Str × List Pos) (ys : List (Str × List Pos)) :
    (insertGroup x ys).Perm (x :: ys) := by
  induction ys with
  | nil => exact List.Perm.refl _
  | cons y ys ih =>
    rw [insertGroup]
    split
    · exact (ih.cons y).trans (List.Perm.swap x y ys)
    · exact List.Perm.refl _

theorem insertGroup_sorted (x : Str × List Pos) (ys : List (Str × List Pos))
    (h : ys.Pairwise fun a b => b.2.length ≤ a.2.length) :
    (insertGroup x ys).Pairwise fun a b => b.2.length ≤ a.2.length := by
  induction ys with
  | nil => simp [insertGroup]
  | cons y ys ih =>
    rw [List.pairwise_cons] at h
    rw [insertGroup]
    split
    · next hle =>
      rw [List.pairwise_cons]
      refine ⟨fun z hz => ?_, ih h.2⟩
      rcases List.mem_cons.1 ((insertGroup_perm x ys).mem_iff.1 hz) with rfl | hz
      · exact hle
      · exact h.1 z hz
    · next hle =>
      rw [List.pairwise_cons, List.pairwise_cons]
      refine ⟨fun z hz => ?_, h⟩
      rcases List.mem_cons.1 hz with rfl | hz
      · omega
      · exact (h.1 z hz).trans (by omega)

theorem insertGroup_stable (x : Str × List Pos) (ys : List (Str × List Pos)) (n : Nat)
    (h : ys.Pairwise fun a b => b.2.length ≤ a.2.length) :
    (insertGroup x ys).filter (fun g => g.2.length = n) =
      (ys ++ [x]).filter (fun g => g.2.length = n) := by
  induction ys with
  | nil => rfl
  | cons y ys ih =>
    rw [List.pairwise_cons] at h
    rw [insertGroup]
    split
    · rw [List.cons_append, List.filter_cons, List.filter_cons, ih h.2]
    · next hle =>
      by_cases hn : x.2.length = n
      · have : ∀ g ∈ y :: ys, ¬ g.2.length = n := by
          intro g hg
          rcases List.mem_cons.1 hg with rfl | hg
          · omega
          · have := h.1 g hg
            omega
        have e : (y :: ys).filter (fun g => decide (g.2.length = n)) = [] := by
          rw [List.filter_eq_nil_iff]
          intro g hg
          simpa using this g hg
        rw [List.filter_append, List.filter_cons, e]
        simp [hn]
      · rw [List.filter_append, List.filter_cons]
        simp [hn]

theorem sortByLen_asContext (gs : List (Str × List Pos)) :
    ∃ ordered, WidestFirst gs ordered ∧ sortByLen (asContext gs) = asContext ordered := by
  have key : ∀ (gs acc done : List (Str × List Pos)), WidestFirst done acc →
      ∃ ordered, WidestFirst (done ++ gs) ordered ∧
        (asContext gs).foldl (fun acc x => insertByLen x acc) (asContext acc) =
          asContext ordered := by
    intro gs
    induction gs with
    | nil =>
      intro acc done h
      exact ⟨acc, by simpa using h, rfl⟩
    | cons x gs ih =>
      intro acc done h
      have h' : WidestFirst (done ++ [x]) (insertGroup x acc) := by
        refine ⟨?_, insertGroup_sorted x acc h.widest, fun n => ?_⟩
        · refine (insertGroup_perm x acc).trans ?_
          refine ((h.same.cons x)).trans ?_
          exact (List.perm_append_comm (l₁ := done) (l₂ := [x])).symm
        · rw [insertGroup_stable x acc n h.widest, List.filter_append, List.filter_append, h.stable]
      obtain ⟨o, h1, h2⟩ := ih _ _ h'
      refine ⟨o, by simpa using h1, ?_⟩
      rw [← h2]
      simp only [asContext, List.map_cons, List.foldl_cons]
      congr 1
      exact insertByLen_asContext x acc
  obtain ⟨o, h1, h2⟩ := key gs [] [] ⟨List.Perm.refl _, List.Pairwise.nil, fun _ => rfl⟩
  exact ⟨o, by simpa using h1, h2⟩

/-- A group of different cells of one row is not in one column. -/
theorem group_row_column {cells : List Pos} (h : CellGroup cells) : ¬ (OneRow cells ∧ OneColumn cells) := by
  rintro ⟨⟨r, hr⟩, ⟨c, hc⟩⟩
  obtain ⟨h2, hn, _, _⟩ := h
  match cells, h2 with
  | a :: b :: rest, _ =>
    simp only [List.nodup_cons, List.mem_cons] at hn
    refine hn.1 (Or.inl ?_)
    exact Prod.ext ((hr a (by simp)).trans (hr b (by simp)).symm)
      ((hc a (by simp)).trans (hc b (by simp)).symm)

open Classical in
theorem scope_group {h : Pos} {cells : List Pos} (hg : CellGroup cells) (hh : 1 ≤ h.1 ∧ 1 ≤ h.2)
    (hl : OneColumn cells → ∀ q ∈ cells, (colLetter q.2).length = (colLetter h.2).length) :
    coordInScope (.str (coordStr h.1 h.2)) (names cells) = .ok (decide (InScope h cells)) := by
  have hne : cells ≠ [] := by rintro rfl; simp [CellGroup] at hg
  obtain ⟨q, rest, hq⟩ := List.exists_cons_of_ne_nil hne
  have hqm : q ∈ cells := by rw [hq]; simp
  by_cases hr : OneRow cells
  · obtain ⟨row, hrow⟩ := hr
    rw [C66_below cells h.1 h.2 hg.2.2.1 hh.1 hh.2 hg.1 row hrow]
    congr 1
    rw [Bool.eq_iff_iff, decide_eq_true_iff, decide_eq_true_iff]
    constructor
    · rintro ⟨h1, h2⟩
      exact Or.inl ⟨row, hrow, h1, h2⟩
    · rintro (⟨row', h1, h2, h3⟩ | ⟨col, h1, _⟩)
      · have : row' = row := (h1 q hqm).symm.trans (hrow q hqm)
        exact ⟨this ▸ h2, h3⟩
      · exact absurd ⟨⟨row, hrow⟩, ⟨col, h1⟩⟩ (group_row_column hg)
  · obtain ⟨col, hcol⟩ := hg.2.2.2.resolve_left hr
    have hl' := hl ⟨col, hcol⟩ q hqm
    rw [hcol q hqm] at hl'
    rw [C66_right_partial cells h.1 h.2 hg.2.2.1 hh.1 hh.2 col hcol hr hl']
    congr 1
    rw [Bool.eq_iff_iff, decide_eq_true_iff, decide_eq_true_iff]
    constructor
    · rintro ⟨h1, h2⟩
      exact Or.inr ⟨col, hcol, h1, h2⟩
    · rintro (⟨row', h1, _⟩ | ⟨col', h1, h2, h3⟩)
      · exact absurd ⟨row', h1⟩ hr
      · have : col' = col := (h1 q hqm).symm.trans (hcol q hqm)
        exact ⟨this ▸ h2, h3⟩

open Classical in
theorem contextOf_groups {h : Pos} {gs : List (Str × List Pos)} (hh : 1 ≤ h.1 ∧ 1 ≤ h.2)
    (hg : ∀ g ∈ gs, CellGroup g.2)
    (hl : ∀ g ∈ gs, OneColumn g.2 → ∀ q ∈ g.2, (colLetter q.2).length = (colLetter h.2).length) :
    contextOf (.str (coordStr h.1 h.2)) (asContext gs) =
      .ok ((gs.filter fun g => InScope h g.2).map (·.1)) := by
  induction gs with
  | nil => rfl
  | cons g gs ih =>
    have ih := ih (fun x hx => hg x (List.mem_cons_of_mem _ hx))
      (fun x hx => hl x (List.mem_cons_of_mem _ hx))
    simp only [asContext, List.map_cons] at ih ⊢
    rw [contextOf]
    refine (bind_intro (scope_group (hg g (by simp)) hh (hl g (by simp)))).trans ?_
    refine (bind_intro ih).trans ?_
    by_cases hs : InScope h g.2
    · simp [hs]; rfl
    · simp [hs]; rfl

open Classical in
theorem contextsOf_groups {hs : List Pos} {gs : List (Str × List Pos)} (hp : Positive hs)
    (hg : ∀ g ∈ gs, CellGroup g.2)
    (hl : ∀ h ∈ hs, ∀ g ∈ gs, OneColumn g.2 →
      ∀ q ∈ g.2, (colLetter q.2).length = (colLetter h.2).length) :
    contextsOf (asContext gs) (names hs) =
      .ok (hs.map fun h => (gs.filter fun g => InScope h g.2).map (·.1)) := by
  induction hs with
  | nil => rfl
  | cons h hs ih =>
    have ih := ih (fun x hx => hp x (List.mem_cons_of_mem _ hx))
      (fun x hx => hl x (List.mem_cons_of_mem _ hx))
    simp only [names, List.map_cons] at ih ⊢
    rw [contextsOf]
    refine (bind_intro (contextOf_groups (hp h (by simp)) hg (hl h (by simp)))).trans ?_
    exact (bind_intro ih).trans rfl

theorem unpackContext_groups {kvs : List (Str × PVal)} {ctx : List (Str × List Pos)}
    (h : List.Forall₂ (fun kv g => kv.1 = g.1 ∧ StandsFor kv.2 g.2) kvs ctx) :
    unpackContext kvs = .ok (asContext ctx) := by
  induction h with
  | nil => rfl
  | @cons kv g kvs ctx h1 h2 ih =>
    obtain ⟨k, v⟩ := kv
    obtain ⟨k', c⟩ := g
    obtain ⟨rfl, h1⟩ := h1
    rw [unpackContext]
    refine (bind_intro (unpackRanges_standsFor h1)).trans ?_
    exact (bind_intro ih).trans rfl

open Classical in
/-- C42, the part that holds: each header is given the labels of the groups in whose scope it lies,
widest group first, and no others. Missing: groups in one column whose column has more or fewer
letters than the header's (`C42_beyond_z_violated`). -/
theorem C42_context_partial (d : PDict) (p : Params) (kvs : List (Str × PVal))
    (ctx : List (Str × List Pos)) (hs : List Pos) (hd : DistinctKeys d)
    (h : Params.new (.dict d) = .ok p) (hc : d.get? .context = some (.dict kvs))
    (hcells : List.Forall₂ (fun kv g => kv.1 = g.1 ∧ StandsFor kv.2 g.2) kvs ctx)
    (hg : ∀ g ∈ ctx, CellGroup g.2) (hne : ctx ≠ []) (hsne : hs ≠ []) (hp : Positive hs)
    (hh : p .headersCoord = .list (names hs)) (hN : p.num = some hs.length)
    (hl : ∀ h ∈ hs, ∀ g ∈ ctx, OneColumn g.2 →
      ∀ q ∈ g.2, (colLetter q.2).length = (colLetter h.2).length) :
    ∃ ordered, WidestFirst ctx ordered ∧
      p .context = .list (hs.map fun h =>
        .list ((ordered.filter fun g => InScope h g.2).map fun g => .str g.1)) := by
  have hd0 : d ≠ [] := by rintro rfl; simp [PDict.get?] at hc
  obtain ⟨d1, d2, d3, d4, ps, thc', multi, n, hb⟩ := ofDict_ok (new_dict_ok h hd0)
  obtain ⟨N', rfl, hN', hle⟩ := hb.num_eq hd
  rw [hN] at hN'
  simp at hN'
  subst hN'
  obtain ⟨o, ho, hsort⟩ := sortByLen_asContext ctx
  refine ⟨o, ho, ?_⟩
  have hc1 : d1.get? .context = some (.dict kvs) := by
    rw [hb.get?_d1 (by decide) (by simp [useDefault]), hc]
  obtain ⟨kv, kvs', rfl⟩ : ∃ kv kvs', kvs = kv :: kvs' := by
    cases hcells with
    | nil => exact absurd rfl hne
    | cons => exact ⟨_, _, rfl⟩
  obtain ⟨c', hp', hc2⟩ : ∃ c', processContext (.dict (kv :: kvs')) (headersOf ps) = .ok c' ∧
      d2.get? .context = some c' := by
    rcases hb.headers.context with ⟨hf, _⟩ | ⟨c, c', h1, _, h3, h4⟩
    · unfold PDict.falsy at hf
      rw [hc1] at hf
      simp [PVal.truthy] at hf
    · rw [hc1] at h1
      cases h1
      exact ⟨c', h3, h4⟩
  obtain ⟨kvs'', us, cs, e1, hu, hcs, rfl⟩ := processContext_ok hp'
  cases e1
  rw [unpackContext_groups hcells] at hu
  cases hu
  rw [hsort] at hcs
  have ho' : ∀ g ∈ o, CellGroup g.2 := fun g hgm => hg g (ho.same.mem_iff.1 hgm)
  have hlo : ∀ h ∈ hs, ∀ g ∈ o, OneColumn g.2 →
      ∀ q ∈ g.2, (colLetter q.2).length = (colLetter h.2).length :=
    fun h hm g hgm => hl h hm g (ho.same.mem_iff.1 hgm)
  have h3 : d3.get? .context = some (.list (cs.map fun ns => .list (ns.map .str))) := by
    rw [hb.guessed.others _ (by decide) (by decide)]
    exact hc2
  have hps := hb.p_headers
  rw [hh] at hps
  have hlen := contextsOf_length hcs
  by_cases hc : ps.length ≠ 1 ∨ hs.length ≤ 1
  · -- one header per series
    have e : ps.map (·.2) = names hs := by
      unfold headersOf at hps
      rw [applyGeneric_list (by simpa using hc)] at hps
      simp only [PVal.list.injEq] at hps
      exact hps.symm
    rw [e, contextsOf_groups hp ho' hlo] at hcs
    cases hcs
    refine hb.value_of h3 (v' := _) ?_ ?_
    · refine congrArg Except.ok ((applyGeneric_full (by simp)).trans ?_)
      simp [Function.comp_def]
    · right
      obtain ⟨q, rest, rfl⟩ := List.exists_cons_of_ne_nil hsne
      rfl
  · -- one header for all series
    have h1 : ps.length = 1 := by omega
    obtain ⟨q, rfl⟩ := List.length_eq_one_iff.1 h1
    have hrep : names hs = List.replicate hs.length q.2 := by
      unfold headersOf at hps
      simp only [List.map_cons, List.map_nil] at hps
      rw [applyGeneric_one (by omega)] at hps
      simpa using hps
    obtain ⟨a, rest, rfl⟩ := List.exists_cons_of_ne_nil hsne
    have hq : q.2 = .str (coordStr a.1 a.2) := by
      simp only [names, List.map_cons, List.length_cons, List.replicate_succ, List.cons.injEq] at hrep
      exact hrep.1.symm
    have hall : ∀ b ∈ a :: rest, b = a := by
      intro b hbm
      have hb1 : PVal.str (coordStr b.1 b.2) ∈ names (a :: rest) :=
        List.mem_map_of_mem (f := fun p : Pos => PVal.str (coordStr p.1 p.2)) hbm
      rw [hrep] at hb1
      have hb2 := List.eq_of_mem_replicate hb1
      rw [hq] at hb2
      simp only [PVal.str.injEq] at hb2
      have p1 := hp b hbm
      have p2 := hp a (by simp)
      obtain ⟨r1, r2⟩ := coordStr_inj p1.1 p1.2 p2.1 p2.2 hb2
      exact Prod.ext r1 r2
    have hrep' : a :: rest = List.replicate (rest.length + 1) a := by
      rw [List.eq_replicate_iff]
      exact ⟨rfl, hall⟩
    have e : [q].map (·.2) = names [a] := by simp [names, hq]
    rw [e, contextsOf_groups (hs := [a]) (fun b hb => by
        rw [List.mem_singleton] at hb
        subst hb
        exact hp _ (by simp)) ho'
      (fun h hm => hlo h (by
        rw [List.mem_singleton] at hm
        subst hm
        simp))] at hcs
    cases hcs
    rw [hrep', List.map_replicate]
    refine hb.value_of h3 (v' := _) ?_ ?_
    · refine congrArg Except.ok ?_
      simp only [List.map_cons, List.map_nil, List.length_cons]
      rw [applyGeneric_one (by simp)]
      simp [Function.comp_def]
    · right
      rw [List.replicate_succ]
      rfl

/-- C42, violated: without its last hypothesis the claim of `C42_context_partial` is false. The
headers AA1 and AA2 are to the right of B1 and B2 but get no context. -/
theorem C42_beyond_z_violated :
    ∃ (d : PDict) (p : Params), DistinctKeys d ∧ Params.new (.dict d) = .ok p ∧
      d.get? .context = some (.dict [(c!"Total", .str c!"B1-B2")]) ∧
      StandsFor (.str c!"B1-B2") [(1, 2), (2, 2)] ∧ CellGroup [(1, 2), (2, 2)] ∧
      p .headersCoord = .list (names [(1, 27), (2, 27)]) ∧
      InScope (1, 27) [(1, 2), (2, 2)] ∧ InScope (2, 27) [(1, 2), (2, 2)] ∧
      p .context = .list [.list [], .list []] := by
  refine ⟨[(.known .headersCoord, .str c!"AA1-AA2"), (.known .dataStarts, .int 28),
    (.known .frequency, .str c!"M"), (.known .timeHeaderCoord, .str c!"A3"),
    (.known .context, .dict [(c!"Total", .str c!"B1-B2")])], _, by unfold DistinctKeys; decide, rfl,
    rfl, Or.inl ⟨_, rfl, Or.inr ⟨(1, 2), (2, 2), '-', Or.inl rfl, by unfold Positive; decide, rfl,
    ?_⟩⟩, ⟨by decide, by decide, by unfold Positive; decide, Or.inr ⟨2, by decide⟩⟩, rfl,
    Or.inr ⟨2, by decide⟩, Or.inr ⟨2, by decide⟩, rfl⟩
  have : [(1, 2), (2, 2)] = rectPositions (1, 2) (2, 2) := rfl
  rw [this]
  exact isRectangle_rectPositions _ _

/-- The hypotheses of `C42_context_partial` are met by a dictionary with nested contexts. -/
example : ∃ p, Params.new (.dict Sample.withContext) = .ok p ∧
    p .headersCoord = .list (names [(3, 2), (3, 3), (3, 4)]) ∧ p.num = some 3 ∧
    p .context = .list [.list [.str c!"Total"], .list [.str c!"Total", .str c!"Exports"],
      .list [.str c!"Total", .str c!"Exports"]] := ⟨_, rfl, rfl, rfl, rfl⟩

example : CellGroup [(1, 2), (1, 3), (1, 4)] ∧ InScope (3, 3) [(1, 2), (1, 3), (1, 4)] :=
  ⟨⟨by decide, by decide, by unfold Positive; decide, Or.inl ⟨1, by decide⟩⟩, Or.inl ⟨1, by decide⟩⟩

end Xls
