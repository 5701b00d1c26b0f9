/-
C36, C37: header ranges and composed headers.
-/
import Verif.Lemmas.Headers
import Verif.Props.ParamsBuild
import Verif.Props.Coords

set_option autoImplicit false

namespace Xls
open Spec

/-! ### C36: ranges -/

/-- A header text expands to exactly the cells it stands for, in reading order. -/
theorem C36_text (s : Str) (ps : List Pos) (h : HeaderText s ps) :
    unpackRanges (.str s) = .ok (.list (names ps)) := unpackRanges_header h

/-- A list of header texts expands to the cells of the first one, then of the second one, ... -/
theorem C36_texts (ss : List Str) (pss : List (List Pos)) (hne : ss ≠ [])
    (h : List.Forall₂ HeaderText ss pss) :
    unpackRanges (.list (ss.map .str)) = .ok (.list (names pss.flatten)) :=
  unpackRanges_headers hne h

theorem unpackRanges_standsFor {v : PVal} {ps : List Pos} (h : StandsFor v ps) :
    unpackRanges v = .ok (.list (names ps)) := by
  rcases h with ⟨s, rfl, h⟩ | ⟨ss, pss, rfl, hne, h, rfl⟩
  · exact C36_text s ps h
  · exact C36_texts ss pss hne h

/-- The headers of a built object are the cells the header texts stand for, when there are as many
series as cells. -/
theorem C36_object (d : PDict) (p : Params) (hc : PVal) (ps : List Pos) (hd : DistinctKeys d)
    (h : Params.new (.dict d) = .ok p) (hN : p.num = some ps.length)
    (hh : d.get? .headersCoord = some hc)
    (hs : StandsFor hc ps) :
    p .headersCoord = .list (names ps) := by
  have hu := unpackRanges_standsFor hs
  have hd0 : d ≠ [] := by rintro rfl; simp [PDict.get?] at hh
  obtain ⟨d1, d2, d3, d4, qs, thc', multi, n, hb⟩ := ofDict_ok (new_dict_ok h hd0)
  obtain ⟨N', rfl, hN', _⟩ := hb.num_eq hd
  rw [hN] at hN'
  simp at hN'
  subst hN'
  have hp := hb.processed hh
  obtain ⟨us, h1, h2⟩ := processHeaders_ok hp
  rw [hu] at h1
  cases h1
  rw [separateAll_names] at h2
  cases h2
  rw [hb.p_headers]
  have e : headersOf (ps.map fun p => (([] : List Str), PVal.str (coordStr p.1 p.2))) =
      .list (names ps) := by
    simp [headersOf, names, Function.comp_def]
  rw [e]
  exact applyGeneric_full (by simp [names])

example : HeaderText c!"b2:c3" [(2, 2), (2, 3), (3, 2), (3, 3)] := by
  refine Or.inr ⟨(2, 2), (3, 3), ':', Or.inr rfl, by unfold Positive; decide, rfl, ?_⟩
  have : [(2, 2), (2, 3), (3, 2), (3, 3)] = rectPositions (2, 2) (3, 3) := rfl
  rw [this]
  exact isRectangle_rectPositions _ _

example : unpackRanges (.list [.str c!"a1", .str c!"B2-B4"]) =
    .ok (.list [.str c!"A1", .str c!"B2", .str c!"B3", .str c!"B4"]) := rfl

/-- Text coordinates of a time header: one cell without `time_multicolumn` is the time header of
every series. -/
theorem C36_time_header (d : PDict) (p : Params) (N : Nat) (s : Str) (t : Pos)
    (hd : DistinctKeys d) (h : Params.new (.dict d) = .ok p) (hN : p.num = some N) (h1 : 1 ≤ N)
    (ht : d.get? .timeHeaderCoord = some (.str s)) (hs : HeaderText s [t])
    (hm : Missing d .timeMulticolumn) :
    p .timeHeaderCoord = .list (List.replicate N (.str (coordStr t.1 t.2))) ∧
      p .timeMulticolumn = .list (List.replicate N (.bool false)) := by
  have hd0 : d ≠ [] := by rintro rfl; simp [PDict.get?] at ht
  obtain ⟨d1, d2, d3, d4, ps, thc', multi, n, hb⟩ := ofDict_ok (new_dict_ok h hd0)
  obtain ⟨N', rfl, hN', _⟩ := hb.num_eq hd
  rw [hN] at hN'
  simp at hN'
  subst hN'
  have hthc : thc' = .list [.str (coordStr t.1 t.2)] := by
    obtain ⟨v, h1, h2⟩ := hb.headers.time
    rw [hb.get?_d1 (by decide) (by simp [useDefault]), ht] at h1
    simp at h1
    subst h1
    rw [unpackRanges_header hs] at h2
    cases h2
    rfl
  subst hthc
  have h2m : d2.get? .timeMulticolumn = d.get? .timeMulticolumn := by
    rw [hb.headers.others _ (by decide) (by decide) (by decide) (by decide),
      hb.get?_d1 (by decide) (by simp [useDefault])]
  have h3m : d3.get? .timeMulticolumn = some (.bool false) := by
    rcases hb.guessed.multicolumn with ⟨m, e, e', _⟩ | ⟨_, v, b, e, e', e''⟩
    · rw [h2m] at e
      rcases hm with hm | hm
      · rw [hm] at e; cases e
      · rw [hm] at e; cases e; cases e'
    · rw [hb.headers.timeHeader] at e
      cases e
      have hp : PVal.pyEq (.str (coordStr t.1 t.2)) (.str (coordStr t.1 t.2)) = true := by
        simp [PVal.pyEq]
      simp [guessMulticolumn, commonEntry, isRepeated, hp] at e'
      rw [e'', e']
  have hmulti : multi = .bool false := by
    have := hb.multiValue
    rw [h3m] at this
    cases this
    rfl
  subst hmulti
  constructor
  · refine hb.value_of (v := .list [.str (coordStr t.1 t.2)]) ?_ ?_ (Or.inl (by decide))
    · rw [hb.guessed.others _ (by decide) (by decide), hb.headers.timeHeader]
    · simp only [applyToAll, applyTimeHeader, firstOrSelf, PVal.truthy, Bool.false_eq_true, if_false]
      rw [applyGeneric_one h1]
  · exact hb.value_of h3m (congrArg Except.ok (applyGeneric_single h1 rfl rfl))
      (Or.inl (by decide))

example : ∃ p, Params.new (.dict Sample.two) = .ok p ∧
    p .headersCoord = .list [.str c!"B1", .str c!"C1"] ∧
    p .timeHeaderCoord = .list [.str c!"A1", .str c!"A1"] := ⟨_, rfl, rfl, rfl⟩

/-! ### C37: composed headers -/

/-- Every header text has one way to be split, and processing yields it, header by header. -/
theorem C37_split (hs : List Str) :
    ∃ qs : List (List Str × Str), List.Forall₂ (fun h q => Composed h q.1 q.2) hs qs ∧
      separateAll (hs.map .str) = .ok (qs.map fun q => (q.1, .str q.2)) ∧
      ∀ qs' : List (List Str × Str),
        List.Forall₂ (fun h q => Composed h q.1 q.2) hs qs' → qs' = qs := by
  obtain ⟨qs, hq⟩ : ∃ qs : List (List Str × Str),
      List.Forall₂ (fun h q => Composed h q.1 q.2) hs qs := by
    induction hs with
    | nil => exact ⟨[], .nil⟩
    | cons h hs ih =>
      obtain ⟨qs, hq⟩ := ih
      obtain ⟨a, b, hc⟩ := composed_exists h
      exact ⟨(a, b) :: qs, .cons hc hq⟩
  refine ⟨qs, hq, separateAll_composed hq, ?_⟩
  intro qs' hq'
  induction hq generalizing qs' with
  | nil => cases hq'; rfl
  | @cons h q hs qs h1 _ ih =>
    cases hq' with
    | @cons _ q' _ qs'' h1' h2' =>
      have e := (composed_split h1).symm.trans (composed_split h1')
      have e1 : q.1 = q'.1 := List.append_inj_left' e rfl
      have e2 : q.2 = q'.2 := by
        have := List.append_inj_right' e rfl
        simpa using this
      rw [ih qs'' h2']
      congr 1
      exact Prod.ext e1.symm e2.symm

theorem unpackElems_texts {hs : List Str} (h : ∀ s ∈ hs, '-' ∉ s ∧ ':' ∉ s) :
    unpackElems (hs.map .str) = .ok ((hs.map upper).map .str) := by
  induction hs with
  | nil => rw [List.map_nil, unpackElems]; rfl
  | cons s hs ih =>
    have hs' := h s (by simp)
    have : unpackStr s = .ok [upper s] := by
      unfold unpackStr
      rw [if_pos (by simp [hs'])]
    rw [List.map_cons, unpackElems, unpackGen, this, ih fun t ht => h t (by simp [ht])]
    · simp [bind, Except.bind, pure, Except.pure]
    · intros; contradiction

/-- In a built object every header is the last coordinate of its text and the coordinates before it
are its composed headers, for texts without ranges. -/
theorem C37_object (d : PDict) (p : Params) (hs : List Str) (hd : DistinctKeys d)
    (h : Params.new (.dict d) = .ok p) (hN : p.num = some hs.length)
    (hh : d.get? .headersCoord = some (.list (hs.map .str)))
    (hr : ∀ s ∈ hs, '-' ∉ s ∧ ':' ∉ s) (qs : List (List Str × Str))
    (hq : List.Forall₂ (fun h q => Composed (upper h) q.1 q.2) hs qs) :
    p .headersCoord = .list (qs.map fun q => .str q.2) ∧
    ((∃ s ∈ hs, '_' ∈ s) →
      p .composedHeadersCoord = .list (qs.map fun q => .list (q.1.map .str))) := by
  have hd0 : d ≠ [] := by rintro rfl; simp [PDict.get?] at hh
  obtain ⟨d1, d2, d3, d4, ps, thc', multi, n, hb⟩ := ofDict_ok (new_dict_ok h hd0)
  obtain ⟨N', rfl, hN', hle⟩ := hb.num_eq hd
  rw [hN] at hN'
  simp at hN'
  subst hN'
  have hp := hb.processed hh
  obtain ⟨us, h1, h2⟩ := processHeaders_ok hp
  have hne : hs ≠ [] := by
    rintro rfl
    rw [List.map_nil, unpackRanges] at h1
    cases h1
  have hus : us = (hs.map upper).map .str := by
    have := unpackElems_texts hr
    cases hs with
    | nil => exact absurd rfl hne
    | cons s hs =>
      rw [List.map_cons] at h1 this
      rw [unpackRanges, unpackGen, this] at h1
      · cases h1; rfl
      · intro h; cases h
  subst hus
  have hq' : List.Forall₂ (fun h q => Composed h q.1 q.2) (hs.map upper) qs := by
    rw [List.forall₂_map_left_iff]; exact hq
  rw [separateAll_composed hq'] at h2
  cases h2
  have hl : qs.length = hs.length := hq.length_eq.symm
  constructor
  · rw [hb.p_headers]
    have e : headersOf (qs.map fun q => (q.1, PVal.str q.2)) = .list (qs.map fun q => .str q.2) := by
      simp [headersOf, Function.comp_def]
    rw [e]
    exact applyGeneric_full (by simp [hl])
  · rintro ⟨s, hs1, hs2⟩
    have hany : anyComposed (qs.map fun q => (q.1, PVal.str q.2)) = true := by
      have hs2' : '_' ∈ upper s := (mem_upper_sep (by decide) (by decide)).2 hs2
      clear hb h1 hp hle hl hN hh hr hq' h hne
      induction hq with
      | nil => simp at hs1
      | @cons h q hs qs h1 _ ih =>
        simp only [List.mem_cons] at hs1
        simp only [anyComposed, List.map_cons, List.any_cons, Bool.or_eq_true]
        rcases hs1 with rfl | hs1
        · left
          have := (composed_mem_iff h1).1 hs2'
          cases hq1 : q.1 with
          | nil => exact absurd hq1 this
          | cons => rfl
        · right; exact ih hs1
    rw [hb.p_composed hany (by simp [hl])]
    simp [composedOf, Function.comp_def]

example : ∃ p, Params.new (.dict Sample.withContext) = .ok p ∧
    p .headersCoord = .list [.str c!"B3", .str c!"C3", .str c!"D3"] ∧
    p .composedHeadersCoord = .list [.list [], .list [.str c!"C2"], .list [.str c!"C2"]] :=
  ⟨_, rfl, rfl, rfl⟩

example : Composed c!"A1_B2_C3" [c!"A1", c!"B2"] c!"C3" := by
  unfold Composed; decide

/-! A range of composed headers: `(A1_B1)-(A3_B3)` walks through all its ranges in step. -/

theorem coordRanges_rects {abs : List (Pos × Pos)} {pss : List (List Pos)}
    (hpos : ∀ ab ∈ abs, Positive [ab.1, ab.2])
    (hr : List.Forall₂ (fun ab ps => IsRectangle ab.1 ab.2 ps) abs pss) :
    coordRanges (abs.map fun ab => (coordStr ab.1.1 ab.1.2, coordStr ab.2.1 ab.2.2)) =
      .ok (pss.map fun ps => ps.map fun p => coordStr p.1 p.2) := by
  induction hr with
  | nil => rfl
  | @cons ab ps abs pss h1 _ ih =>
    rw [List.map_cons, coordRanges, bind_intro (coordRange_rect (hpos ab (by simp)) h1),
      bind_intro (ih fun x hx => hpos x (by simp [hx]))]
    rfl

theorem zipAll_spec {rs : List (List Str)} {n : Nat} (hne : rs ≠ [])
    (h : ∀ r ∈ rs, r.length = n) :
    zipAll rs = (List.range n).map fun j => rs.map fun r => r.getD j [] := by
  induction rs with
  | nil => exact absurd rfl hne
  | cons r rs ih =>
    have hr : r.length = n := h r (by simp)
    cases rs with
    | nil =>
      simp only [zipAll]
      apply List.ext_getElem
      · simp [hr]
      · intro i h1 h2
        simp at h1
        simp [List.getD_eq_getElem?_getD, h1]
    | cons r' rs =>
      have ih := ih (by simp) fun x hx => h x (by simp [hx])
      rw [zipAll, ih]
      · apply List.ext_getElem
        · simp [hr]
        · intro i h1 h2
          simp at h1
          simp [List.getD_eq_getElem?_getD, h1]
      · simp

theorem filter_parens {s : Str} (h : ∀ c ∈ s, c ≠ '(' ∧ c ≠ ')') : dropParens s = s := by
  unfold dropParens
  rw [List.filter_eq_self]
  intro c hc
  simp [h c hc]

theorem joined_chars {ws : List Str} {P : Char → Prop} (hu : P '_')
    (h : ∀ w ∈ ws, ∀ c ∈ w, P c) : ∀ c ∈ joinWith ['_'] ws, P c := by
  induction ws with
  | nil => simp [joinWith]
  | cons w ws ih =>
    have hw := h w (by simp)
    have ih := ih fun x hx => h x (by simp [hx])
    cases ws with
    | nil => simpa [joinWith] using hw
    | cons w' ws =>
      intro c hc
      simp only [joinWith, List.mem_append, List.mem_cons, List.not_mem_nil, or_false] at hc
      rcases hc with (hc | rfl) | hc
      · exact hw c hc
      · exact hu
      · exact ih c hc

/-- A range between two composed headers of the same number of parts, with parentheses, expands to
the composed headers made of the cells of the ranges taken in step. -/
theorem C37_composed_range (abs : List (Pos × Pos)) (pss : List (List Pos)) (n : Nat) (s : Str)
    (sep : Char) (hsep : sep = '-' ∨ sep = ':') (h2 : 2 ≤ abs.length)
    (hpos : ∀ ab ∈ abs, Positive [ab.1, ab.2])
    (hr : List.Forall₂ (fun ab ps => IsRectangle ab.1 ab.2 ps ∧ ps.length = n) abs pss)
    (hs : upper s = '(' :: joinWith ['_'] (abs.map fun ab => coordStr ab.1.1 ab.1.2) ++ [')', sep, '(']
      ++ joinWith ['_'] (abs.map fun ab => coordStr ab.2.1 ab.2.2) ++ [')']) :
    unpackStr s = .ok ((List.range n).map fun j =>
      joinWith ['_'] (pss.map fun ps => coordStr (ps.getD j (1, 1)).1 (ps.getD j (1, 1)).2)) := by
  have nd : ∀ c ∈ joinWith ['_'] (abs.map fun ab => coordStr ab.1.1 ab.1.2),
      c ≠ '-' ∧ c ≠ ':' ∧ c ≠ '(' ∧ c ≠ ')' := by
    refine joined_chars (by decide) ?_
    intro w hw c hc
    simp only [List.mem_map] at hw
    obtain ⟨ab, _, rfl⟩ := hw
    rcases coordStr_chars _ _ c hc with h | h <;>
      (refine ⟨?_, ?_, ?_, ?_⟩ <;> rintro rfl <;> revert h <;> decide)
  have nd' : ∀ c ∈ joinWith ['_'] (abs.map fun ab => coordStr ab.2.1 ab.2.2),
      c ≠ '-' ∧ c ≠ ':' ∧ c ≠ '(' ∧ c ≠ ')' := by
    refine joined_chars (by decide) ?_
    intro w hw c hc
    simp only [List.mem_map] at hw
    obtain ⟨ab, _, rfl⟩ := hw
    rcases coordStr_chars _ _ c hc with h | h <;>
      (refine ⟨?_, ?_, ?_, ?_⟩ <;> rintro rfl <;> revert h <;> decide)
  have hu : ∀ (f : Pos × Pos → Pos),
      '_' ∈ joinWith ['_'] (abs.map fun ab => coordStr (f ab).1 (f ab).2) := by
    intro f
    obtain ⟨a, b, rest, rfl⟩ : ∃ a b rest, abs = a :: b :: rest := by
      match abs, h2 with
      | a :: b :: rest, _ => exact ⟨a, b, rest, rfl⟩
    simp [joinWith]
  have hu1 := hu (·.1)
  have hu2 := hu (·.2)
  have split1 : splitOn '_' (joinWith ['_'] (abs.map fun ab => coordStr ab.1.1 ab.1.2)) =
      abs.map fun ab => coordStr ab.1.1 ab.1.2 := by
    refine splitOn_joinWith ?_ ?_
    · intro e; simp at e; subst e; simp at h2
    · intro w hw
      simp only [List.mem_map] at hw
      obtain ⟨ab, _, rfl⟩ := hw
      exact coordStr_without rfl rfl
  have split2 : splitOn '_' (joinWith ['_'] (abs.map fun ab => coordStr ab.2.1 ab.2.2)) =
      abs.map fun ab => coordStr ab.2.1 ab.2.2 := by
    refine splitOn_joinWith ?_ ?_
    · intro e; simp at e; subst e; simp at h2
    · intro w hw
      simp only [List.mem_map] at hw
      obtain ⟨ab, _, rfl⟩ := hw
      exact coordStr_without rfl rfl
  generalize joinWith ['_'] (abs.map fun ab => coordStr ab.1.1 ab.1.2) = X at *
  generalize joinWith ['_'] (abs.map fun ab => coordStr ab.2.1 ab.2.2) = Y at *
  have m1 : '-' ∈ upper s ↔ '-' ∈ s := mem_upper_sep (by decide) (by decide)
  have m2 : ':' ∈ upper s ↔ ':' ∈ s := mem_upper_sep (by decide) (by decide)
  have hcont : ¬ ((!s.contains '-' && !s.contains ':') = true) := by
    rcases hsep with rfl | rfl
    · have : '-' ∈ s := by rw [← m1, hs]; simp
      simp [this]
    · have : ':' ∈ s := by rw [← m2, hs]; simp
      simp [this]
  have hsepS : (if s.contains '-' then '-' else ':') = sep := by
    rcases hsep with rfl | rfl
    · have : '-' ∈ s := by rw [← m1, hs]; simp
      simp [this]
    · have : '-' ∉ s := by
        rw [← m1, hs]
        have a : '-' ∉ X := fun h => (nd '-' h).1 rfl
        have b : '-' ∉ Y := fun h => (nd' '-' h).1 rfl
        simp [a, b]
      simp [this]
  have nX : sep ∉ '(' :: X ++ [')'] := by
    rcases hsep with rfl | rfl
    · have a : '-' ∉ X := fun h => (nd '-' h).1 rfl
      simp [a]
    · have a : ':' ∉ X := fun h => (nd ':' h).2.1 rfl
      simp [a]
  have nY : sep ∉ '(' :: Y ++ [')'] := by
    rcases hsep with rfl | rfl
    · have a : '-' ∉ Y := fun h => (nd' '-' h).1 rfl
      simp [a]
    · have a : ':' ∉ Y := fun h => (nd' ':' h).2.1 rfl
      simp [a]
  have hsplit : splitOn sep (upper s) = ['(' :: X ++ [')'], '(' :: Y ++ [')']] := by
    have e : upper s = ('(' :: X ++ [')']) ++ sep :: ('(' :: Y ++ [')']) := by
      rw [hs]; simp
    rw [e, splitOn_cons nX, splitOn_none nY]
  have dX : dropParens ('(' :: X ++ [')']) = X := by
    unfold dropParens
    simp only [List.cons_append, List.filter_cons, List.filter_append]
    simpa using fun c hc => (nd c hc).2.2
  have dY : dropParens ('(' :: Y ++ [')']) = Y := by
    unfold dropParens
    simp only [List.cons_append, List.filter_cons, List.filter_append]
    simpa using fun c hc => (nd' c hc).2.2
  have hrr : List.Forall₂ (fun ab ps => IsRectangle ab.1 ab.2 ps) abs pss := hr.imp fun _ _ h => h.1
  have hlen : ∀ ps ∈ pss, ps.length = n := by
    clear hs split1 split2 hpos hu hrr nd nd' h2
    induction hr with
    | nil => simp
    | cons h1 _ ih =>
      simp only [List.mem_cons, forall_eq_or_imp]
      exact ⟨h1.2, ih⟩
  unfold unpackStr
  rw [if_neg hcont, hsepS, hsplit]
  simp only
  rw [if_neg (by simp [hu1]), if_pos (by simp [hu1, hu2]), dX, dY, split1, split2,
    List.zip_map', bind_intro (coordRanges_rects hpos hrr)]
  have hne : (pss.map fun ps => ps.map fun p => coordStr p.1 p.2) ≠ [] := by
    intro e
    simp at e
    subst e
    cases hr
    simp at h2
  rw [zipAll_spec (n := n) hne]
  · show Except.ok _ = _
    rw [List.map_map]
    congr 1
    apply List.map_congr_left
    intro j hj
    simp only [Function.comp_apply, List.map_map]
    congr 1
    apply List.map_congr_left
    intro ps hps
    have hj' : j < ps.length := by rw [hlen ps hps]; simpa using hj
    simp [List.getD_eq_getElem?_getD, hj']
  · intro r hr'
    simp only [List.mem_map] at hr'
    obtain ⟨ps, hps, rfl⟩ := hr'
    simp [hlen ps hps]

example : unpackStr c!"(b1_c2)-(b1_c4)" = .ok [c!"B1_C2"] ∧
    unpackStr c!"(B1_C2)-(D1_E2)" = .ok [c!"B1_C2", c!"C1_D2", c!"D1_E2"] := ⟨rfl, rfl⟩

end Xls
