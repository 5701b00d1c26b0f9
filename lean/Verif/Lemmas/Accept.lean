/-
Building a `Parameters` object from a description never fails.
-/
import Verif.Spec.Description
import Verif.Props.ParamsLayout
import Verif.Props.ParamsHeaders

set_option autoImplicit false

namespace Xls

open Spec

/-- All keys are parameter names. -/
def AllKnown (d : PDict) : Prop := ∀ kv ∈ d, ∃ n, kv.1 = .known n

theorem allKnown_put {d : PDict} (h : AllKnown d) (n : Name) (v : PVal) : AllKnown (d.put (.known n) v) := by
  intro kv hkv
  have := (PDict.keys_put d (.known n) v kv.1).1 (List.mem_map_of_mem (f := (·.1)) hkv)
  rcases this with h' | h'
  · rw [List.mem_map] at h'
    obtain ⟨kv', h1, h2⟩ := h'
    rw [← h2]
    exact h kv' h1
  · exact ⟨n, h'⟩

theorem allKnown_defaults {d : PDict} (h : AllKnown d) : AllKnown (missingsToDefault d) := by
  unfold missingsToDefault
  simp only [useDefault, List.foldl_cons, List.foldl_nil, defaultValue]
  split <;> split <;> first | exact h | exact allKnown_put h _ _ | exact allKnown_put (allKnown_put h _ _) _ _

theorem passes_other {n : Name} {v : PVal} (h : n ≠ .frequency) : Passes n v ↔ Allowed n v := by
  cases n <;> first | exact absurd rfl h | rfl

theorem curated_forward {d : PDict} {ps : List Pos} {t : Pos} {k : Int} {f : Str} (h : Described d ps t k f) :
    ∃ d1, buildCurated d = .ok d1 ∧ d1.Distinct ∧ AllKnown d1 ∧
      (∀ x rest, d1.get? .missingValue ≠ some (.list (.list x :: rest))) ∧
      ∀ n, n ≠ .frequency → n ∉ useDefault → d1.get? n = d.get? n := by
  obtain ⟨hc, hh, hsf⟩ := h.headers
  obtain ⟨ts, ht, _⟩ := h.time
  obtain ⟨s, hs, hm, hcode⟩ := h.frequency
  have hf := freqMeans_eq hm
  have hcrit : checkHasCritical d critical = .ok () := by
    have hstand : hc.isNone = false := by
      rcases hsf with ⟨s, rfl, _⟩ | ⟨ss, _, rfl, _⟩ <;> rfl
    simp only [critical, checkHasCritical, hh, ht, hs, h.starts, hstand]
    rfl
  have hcur : curateFreq (.str s) = .ok (.str f) := by
    rw [hf]; rfl
  have hdist : PDict.Distinct (d.put (.known .frequency) (.str f)) := PDict.distinct_put h.distinct _ _
  have hval : validateParams (d.put (.known .frequency) (.str f)) = .ok () := by
    rw [validateParams_ok]
    intro kv hkv
    obtain ⟨key, v⟩ := kv
    obtain ⟨n, rfl⟩ := allKnown_put h.known .frequency (.str f) _ hkv
    have hg := PDict.get?_of_mem hdist hkv
    rw [validateParam_ok]
    by_cases hn : n = .frequency
    · subst hn
      rw [PDict.get?_put_self] at hg
      cases hg
      exact .inr (.inl ⟨f, rfl, hcode⟩)
    · rw [PDict.get?_put_other _ _ (Ne.symm hn)] at hg
      by_cases hcr : n ∈ critical
      · refine .inr ((passes_other hn).2 ?_)
        have hn' : n = .timeHeaderCoord ∨ n = .headersCoord ∨ n = .dataStarts := by
          simp only [critical, List.mem_cons, List.not_mem_nil, or_false] at hcr
          rcases hcr with h' | h' | h' | h' <;> simp_all
        rcases hn' with rfl | rfl | rfl
        · rw [ht] at hg
          cases hg
          exact .inr ⟨by decide, .inr ⟨by rintro ⟨vs, ⟨⟩⟩, .inl ⟨ts, rfl⟩⟩⟩
        · rw [hh] at hg
          cases hg
          refine .inr ⟨by decide, ?_⟩
          rcases hsf with ⟨s, rfl, _⟩ | ⟨ss, _, rfl, _⟩
          · exact .inr ⟨by rintro ⟨vs, ⟨⟩⟩, s, rfl⟩
          · refine .inl ⟨_, rfl, ?_⟩
            intro x hx
            rw [List.mem_map] at hx
            obtain ⟨y, _, rfl⟩ := hx
            exact ⟨y, rfl⟩
        · rw [h.starts] at hg
          cases hg
          exact .inr ⟨by decide, .inr ⟨by rintro ⟨vs, ⟨⟩⟩, .inl ⟨k, rfl⟩⟩⟩
      · rcases h.others n v hg hcr with h' | ⟨h1, h2⟩
        · exact .inl h'
        · refine .inr ((passes_other hn).2 (.inr ⟨?_, .inr ⟨h1, h2⟩⟩))
          rintro rfl
          exact h2
  refine ⟨_, ?_, missingsToDefault_distinct hdist, allKnown_defaults (allKnown_put h.known _ _), ?_, ?_⟩
  · unfold buildCurated
    rw [bind_intro hcrit, bind_intro (PDict.get_ok.2 hs), bind_intro hcur]
    dsimp only
    rw [bind_intro hval]
    rfl
  · intro x rest hx
    rw [missingsToDefault_get?] at hx
    split at hx
    · cases hx
    · rw [PDict.get?_put_other _ _ (by decide)] at hx
      rcases h.others _ _ hx (by decide) with h' | ⟨h1, _⟩
      · cases h'
      · exact h1 ⟨_, rfl⟩
  · intro n h1 h2
    rw [missingsToDefault_get?, if_neg (by simp [h2]), PDict.get?_put_other _ _ (Ne.symm h1)]

/-- The headers, the time header and the context of a description. -/
theorem headers_forward {d d1 : PDict} {ps : List Pos} {t : Pos} {k : Int} {f : Str}
    (h : Described d ps t k f) (hd1 : d1.Distinct) (hk1 : AllKnown d1)
    (hg : ∀ n, n ≠ .frequency → n ∉ useDefault → d1.get? n = d.get? n) :
    ∃ d2, buildHeaders d1 = .ok d2 ∧ d2.Distinct ∧ AllKnown d2 ∧
      d2.get? .headersCoord = some (.list (names ps)) ∧
      d2.get? .timeHeaderCoord = some (.list (names [t])) ∧
      ∀ n, n ≠ .headersCoord → n ≠ .timeHeaderCoord → d2.get? n = d1.get? n := by
  obtain ⟨hc, hh, hsf⟩ := h.headers
  obtain ⟨ts, ht, hts⟩ := h.time
  have hproc : processHeaders hc = .ok (ps.map fun p => ([], .str (coordStr p.1 p.2))) := by
    unfold processHeaders
    rw [bind_intro (unpackRanges_standsFor hsf)]
    exact separateAll_names ps
  have hof : headersOf (ps.map fun p => ([], PVal.str (coordStr p.1 p.2))) = .list (names ps) := by
    unfold headersOf names
    rw [List.map_map]
    rfl
  have hany : anyComposed (ps.map fun p => (([] : List Str), PVal.str (coordStr p.1 p.2))) = false := by
    unfold anyComposed
    rw [List.any_eq_false]
    intro x hx
    rw [List.mem_map] at hx
    obtain ⟨p, _, rfl⟩ := hx
    intro h'
    cases h'
  have hctx : d1.falsy .context = true := by
    unfold PDict.falsy
    rw [hg _ (by decide) (by decide)]
    cases hx : d.get? .context with
    | none => rfl
    | some v =>
      rcases h.others _ _ hx (by decide) with rfl | ⟨_, h2⟩
      · rfl
      · exact h2.elim
  have hhead : d1.get? .headersCoord = some hc := by rw [hg _ (by decide) (by decide)]; exact hh
  have htime : (d1.put (.known .headersCoord) (.list (names ps))).get? .timeHeaderCoord = some (.str ts) := by
    rw [PDict.get?_put_other _ _ (by decide), hg _ (by decide) (by decide)]
    exact ht
  refine ⟨(d1.put (.known .headersCoord) (.list (names ps))).put (.known .timeHeaderCoord) (.list (names [t])),
    ?_, PDict.distinct_put (PDict.distinct_put hd1 _ _) _ _, allKnown_put (allKnown_put hk1 _ _) _ _, ?_, ?_, ?_⟩
  · unfold buildHeaders
    rw [bind_intro (PDict.get_ok.2 hhead), bind_intro hproc]
    dsimp only
    rw [hof, hany, if_neg (by decide), bind_intro (PDict.get_ok.2 htime), bind_intro (unpackRanges_header hts),
      if_pos]
    · rfl
    · unfold PDict.falsy at hctx ⊢
      rw [PDict.get?_put_other _ _ (by decide), PDict.get?_put_other _ _ (by decide)]
      exact hctx
  · rw [PDict.get?_put_other _ _ (by decide), PDict.get?_put_self]
  · rw [PDict.get?_put_self]
  · intro n h1 h2
    rw [PDict.get?_put_other _ _ (Ne.symm h2), PDict.get?_put_other _ _ (Ne.symm h1)]

theorem consistency_forward {d : PDict} {ps : List Pos} {t : Pos} {k : Int} {f : Str}
    (h : Described d ps t k f) : checkConsistency (.int k) (names ps) (d.get? .alignment) = .ok () := by
  have hcells := cellsOf_names h.positive
  obtain ⟨p, rest, hps⟩ := List.exists_cons_of_ne_nil h.nonempty
  have hgt : ∀ n : Nat, (n : Int) < k → gtInt (.int k) n = .ok true := by
    intro n hn
    unfold gtInt
    simp [PVal.number]
    exact_mod_cast hn
  unfold checkConsistency
  rw [bind_intro (show firstOrSelf (.int k) = .ok (.int k) from rfl), bind_intro hcells]
  have hv : assertIf (looksVertical (asInts ps) (d.get? .alignment)) (.int k) ((asInts ps).map (·.1)) = .ok () := by
    unfold assertIf
    split
    next hl =>
      have hlt : (p.1 : Int) < k := by
        refine h.below ?_ p (by rw [hps]; exact List.mem_cons_self)
        unfold looksVertical at hl
        split at hl
        next a ha => exact .inl (by rw [ha, (pyEq_str _ _).1 hl])
        next ha =>
          rw [Bool.and_eq_true, decide_eq_true_iff] at hl
          refine .inr ⟨ha, ?_, (evidentlyVertical_iff h.nonempty).1 hl.2⟩
          have := hl.1
          unfold asInts at this
          rw [List.length_map] at this
          omega
      rw [hps]
      unfold asInts assertAfter
      simp only [List.map_cons]
      rw [hgt _ hlt]
      rfl
    next => rfl
  have hh : assertIf (looksHorizontal (asInts ps) (d.get? .alignment)) (.int k) ((asInts ps).map (·.2)) = .ok () := by
    unfold assertIf
    split
    next hl =>
      have hlt : (p.2 : Int) < k := by
        refine h.beside ?_ p (by rw [hps]; exact List.mem_cons_self)
        unfold looksHorizontal at hl
        split at hl
        next a ha => exact .inl (by rw [ha, (pyEq_str _ _).1 hl])
        next ha =>
          rw [Bool.and_eq_true, decide_eq_true_iff] at hl
          refine .inr ⟨ha, ?_, (evidentlyHorizontal_iff h.nonempty).1 hl.2⟩
          have := hl.1
          unfold asInts at this
          rw [List.length_map] at this
          omega
      rw [hps]
      unfold asInts assertAfter
      simp only [List.map_cons]
      rw [hgt _ hlt]
      rfl
    next => rfl
  unfold asInts at hv hh
  rw [bind_intro hv]
  exact hh

theorem alignment_total {ps : List Pos} (hp : Positive ps) : ∃ a, guessAlignment (names ps) = .ok a := by
  by_cases h2 : 2 ≤ ps.length
  · obtain ⟨b, hb⟩ := consecutive_total hp
    by_cases h4 : 4 ≤ ps.length
    · exact ⟨_, guess_large hp h2 (.inl h4)⟩
    · cases b with
      | true => exact ⟨_, guess_large hp h2 (.inr hb)⟩
      | false => exact ⟨_, guess_small (.inr ⟨by omega, hb⟩)⟩
  · exact ⟨_, guess_small (.inl (by omega))⟩

/-- Consistency and guesses. -/
theorem guesses_forward {d d2 : PDict} {ps : List Pos} {t : Pos} {k : Int} {f : Str}
    (h : Described d ps t k f) (hd2 : d2.Distinct) (hk2 : AllKnown d2)
    (hh : d2.get? .headersCoord = some (.list (names ps)))
    (ht : d2.get? .timeHeaderCoord = some (.list (names [t])))
    (hs : d2.get? .dataStarts = some (.int k)) (ha : d2.get? .alignment = d.get? .alignment)
    (hnl : ∀ m, d2.get? .timeMulticolumn = some m → ¬ IsListValue m) :
    ∃ d3, buildGuesses d2 = .ok d3 ∧ d3.Distinct ∧ AllKnown d3 ∧
      (∃ m, d3.get? .timeMulticolumn = some m ∧ ¬ IsListValue m) ∧
      ∀ n, n ≠ .timeMulticolumn → n ≠ .alignment → d3.get? n = d2.get? n := by
  obtain ⟨a, hal⟩ := alignment_total h.positive
  have hmulti : ∃ e, guessMultiStep d2 = .ok e ∧ e.Distinct ∧ AllKnown e ∧
      (∃ m, e.get? .timeMulticolumn = some m ∧ ¬ IsListValue m) ∧ ∀ n, n ≠ .timeMulticolumn → e.get? n = d2.get? n := by
    unfold guessMultiStep
    split
    next hf =>
      refine ⟨d2.put (.known .timeMulticolumn) (.bool false), ?_, PDict.distinct_put hd2 _ _,
        allKnown_put hk2 _ _, ⟨_, PDict.get?_put_self _ _ _, by rintro ⟨vs, ⟨⟩⟩⟩,
        fun n hn => PDict.get?_put_other _ _ (Ne.symm hn)⟩
      rw [bind_intro (PDict.get_ok.2 ht)]
      rw [bind_intro (show guessMulticolumn (.list (names [t])) (numSeries d2) = .ok false by
        unfold guessMulticolumn
        rw [show commonEntry (.list (names [t])) = .ok (.str (coordStr t.1 t.2)) by
          unfold commonEntry names
          dsimp only [List.map]
          rw [if_pos]
          simp only [isRepeated, List.all_cons, List.all_nil, Bool.and_true]
          exact (pyEq_str _ _).2 rfl])]
      rfl
    next hf =>
      refine ⟨d2, rfl, hd2, hk2, ?_, fun _ _ => rfl⟩
      unfold PDict.falsy at hf
      cases hm : d2.get? .timeMulticolumn with
      | none => rw [hm] at hf; exact absurd rfl hf
      | some m => exact ⟨m, rfl, hnl m hm⟩
  obtain ⟨e, he, hde, hke, ⟨m, hm, hml⟩, hge⟩ := hmulti
  have hstep : ∃ d3, guessAlignStep (names ps) e = .ok d3 ∧ d3.Distinct ∧ AllKnown d3 ∧
      ∀ n, n ≠ .alignment → d3.get? n = e.get? n := by
    unfold guessAlignStep
    split
    · refine ⟨e.put (.known .alignment) a, ?_, PDict.distinct_put hde _ _, allKnown_put hke _ _,
        fun n hn => PDict.get?_put_other _ _ (Ne.symm hn)⟩
      rw [bind_intro hal]
      rfl
    · exact ⟨e, rfl, hde, hke, fun _ _ => rfl⟩
  obtain ⟨d3, h3, hd3, hk3, hg3⟩ := hstep
  refine ⟨d3, ?_, hd3, hk3, ⟨m, by rw [hg3 _ (by decide), hm], hml⟩, fun n h1 h2 => by rw [hg3 n h2, hge n h1]⟩
  unfold buildGuesses
  rw [bind_intro (PDict.get_ok.2 hs), bind_intro (PDict.get_ok.2 hh)]
  dsimp only
  rw [ha, bind_intro (consistency_forward h), bind_intro he]
  exact h3

theorem applyEach_forward {N : Nat} {multi : PVal} {d : PDict} (hk : AllKnown d)
    (h : ∀ n v, (Key.known n, v) ∈ d → ∃ v', applyToAll n v (some N) multi = .ok v') :
    ∃ d', applyEach (some N) multi d = .ok d' := by
  induction d with
  | nil => exact ⟨[], rfl⟩
  | cons kv d ih =>
    obtain ⟨key, v⟩ := kv
    obtain ⟨n, hn⟩ := hk (key, v) List.mem_cons_self
    dsimp only at hn
    subst hn
    obtain ⟨v', hv'⟩ := h n v List.mem_cons_self
    obtain ⟨d', hd'⟩ := ih (fun kv hkv => hk kv (List.mem_cons_of_mem _ hkv))
      (fun n v hm => h n v (List.mem_cons_of_mem _ hm))
    refine ⟨(.known n, v') :: d', ?_⟩
    unfold applyEach
    rw [bind_intro hv', bind_intro hd']
    rfl

/-- A description is accepted. -/
theorem new_described {d : PDict} {ps : List Pos} {t : Pos} {k : Int} {f : Str} (h : Described d ps t k f) :
    ∃ p, Params.new (.dict d) = .ok p := by
  obtain ⟨d1, e1, hd1, hk1, hmv1, hg1⟩ := curated_forward h
  obtain ⟨d2, e2, hd2, hk2, hh2, ht2, hg2⟩ := headers_forward h hd1 hk1 hg1
  obtain ⟨d3, e3, hd3, hk3, ⟨m, hm, hml⟩, hg3⟩ := guesses_forward h hd2 hk2 hh2 ht2
    (by rw [hg2 _ (by decide) (by decide), hg1 _ (by decide) (by decide)]; exact h.starts)
    (by rw [hg2 _ (by decide) (by decide), hg1 _ (by decide) (by decide)])
    (by
      intro m hm
      rw [hg2 _ (by decide) (by decide), hg1 _ (by decide) (by decide)] at hm
      rcases h.others _ _ hm (by decide) with rfl | ⟨h1, _⟩
      · rintro ⟨vs, ⟨⟩⟩
      · exact h1)
  obtain ⟨N, hN⟩ : ∃ N, numSeries d2 = some N := by
    cases hn : numSeries d2 with
    | some N => exact ⟨N, rfl⟩
    | none =>
      have := ((numSeriesFrom_spec d2 none).1.1 hn).2 _ _ (PDict.mem_of_get? hh2)
      cases this
  have hfirst : firstOrSelf m = .ok m := by
    unfold firstOrSelf
    split
    · exact absurd ⟨_, rfl⟩ hml
    · exact absurd ⟨_, rfl⟩ hml
    · rfl
  obtain ⟨d4, e4⟩ := applyEach_forward (N := N) (multi := m) hk3 (by
    intro n v hmem
    have hg := PDict.get?_of_mem hd3 hmem
    by_cases h1 : n = .timeHeaderCoord
    · subst h1
      rw [hg3 _ (by decide) (by decide), ht2] at hg
      cases hg
      unfold applyToAll applyTimeHeader names
      dsimp only [List.map]
      rw [hfirst]
      dsimp only
      split
      · exact ⟨_, rfl⟩
      · exact ⟨_, rfl⟩
    · by_cases h2 : n = .missingValue
      · subst h2
        rw [hg3 _ (by decide) (by decide), hg2 _ (by decide) (by decide)] at hg
        unfold applyToAll applyMissingValue
        dsimp only
        split
        next x rest => exact absurd hg (hmv1 x rest)
        · exact ⟨_, rfl⟩
        · exact ⟨_, rfl⟩
      · refine ⟨applyGeneric v (some N) (validValues n), ?_⟩
        unfold applyToAll
        cases n <;> first | rfl | contradiction)
  refine ⟨fun n => ((applyOptional (some N) d4).get? n).getD .none, ?_⟩
  obtain ⟨hc, hh, _⟩ := h.headers
  unfold Params.new
  dsimp only
  rw [if_neg (by rintro rfl; cases hh)]
  unfold Params.ofDict build
  rw [bind_intro e1, bind_intro e2]
  dsimp only
  rw [hN, bind_intro e3, bind_intro (PDict.get_ok.2 hm), bind_intro e4]
  rfl

end Xls
