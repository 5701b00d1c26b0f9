/-
A complete description is built into the parameters of the series it describes.
-/
import Verif.Spec.Describes
import Verif.Lemmas.Accept

set_option autoImplicit false

namespace Xls

open Spec

/-! ### Values given for each series -/

theorem Spec.GivesEach.first {v x : PVal} {xs : List PVal} (h : GivesEach v (x :: xs)) :
    firstOrSelf v = .ok x := by
  rcases h with ⟨hl, h⟩ | ⟨y, rfl, h⟩ | rfl
  · have := h x List.mem_cons_self
    subst this
    unfold firstOrSelf
    split
    · exact absurd ⟨_, rfl⟩ hl
    · exact absurd ⟨_, rfl⟩ hl
    · rfl
  · rw [h x List.mem_cons_self]
    rfl
  · rfl

theorem Spec.GivesEach.apply {v : PVal} {xs : List PVal} {vs : List Valid} (h : GivesEach v xs) (hne : xs ≠ [])
    (hv : v ≠ .none ∨ hasNone vs = true) : applyGeneric v (some xs.length) vs = .list xs := by
  have hpos : 1 ≤ xs.length := List.length_pos_of_ne_nil hne
  rcases h with ⟨hl, h⟩ | ⟨y, rfl, h⟩ | rfl
  · have e : xs = List.replicate xs.length v := List.eq_replicate_iff.2 ⟨rfl, h⟩
    by_cases hn : v = .none
    · subst hn
      rw [applyGeneric_none hpos (hv.resolve_left (fun h => h rfl)), ← e]
    · rw [applyGeneric_single hpos, ← e]
      · cases v <;> first | rfl | exact absurd ⟨_, rfl⟩ hl
      · cases v <;> first | rfl | exact absurd rfl hn
  · have e : xs = List.replicate xs.length y := List.eq_replicate_iff.2 ⟨rfl, h⟩
    rw [applyGeneric_one hpos, ← e]
  · exact applyGeneric_full rfl

theorem Spec.GivesEach.passes {v : PVal} {xs : List PVal} {n : Name} (h : GivesEach v xs) (hne : xs ≠ [])
    (hc : n ≠ .context) (ha : ∀ x ∈ xs, AllowedOne n x) : Allowed n v := by
  refine .inr ⟨hc, ?_⟩
  obtain ⟨x, rest, rfl⟩ := List.exists_cons_of_ne_nil hne
  rcases h with ⟨hl, h⟩ | ⟨y, rfl, h⟩ | rfl
  · exact .inr ⟨hl, h x List.mem_cons_self ▸ ha x List.mem_cons_self⟩
  · refine .inl ⟨_, rfl, ?_⟩
    intro z hz
    rw [List.mem_singleton] at hz
    rw [hz, ← h x List.mem_cons_self]
    exact ha x List.mem_cons_self
  · exact .inl ⟨_, rfl, ha⟩

theorem Spec.GivesEach.short {ws xs : List PVal} (h : GivesEach (.list ws) xs) (hne : xs ≠ []) :
    ws.length ≤ xs.length := by
  have hpos : 1 ≤ xs.length := List.length_pos_of_ne_nil hne
  rcases h with ⟨hl, h⟩ | ⟨y, h, _⟩ | h
  · exact absurd ⟨_, rfl⟩ hl
  · cases h
    exact hpos
  · cases h
    exact Nat.le_refl _

/-- Every parameter of a series, but the alignment and the time alignment, has an allowed value. -/
theorem allowed_raw {sp : SParams} {n : Name} (hc : n ≠ .context) (hf : n ≠ .frequency)
    (ha : n = .alignment → sp.alignment ≠ .other)
    (ht : n = .timeAlignment → sp.timeAlignment = -1 ∨ sp.timeAlignment = 0 ∨ sp.timeAlignment = 1) :
    AllowedOne n (rawValue sp n) := by
  have hb : ∀ b : Bool, TrueOrFalse (.bool b) := by
    intro b
    cases b
    · exact .inr rfl
    · exact .inl rfl
  cases n with
  | alignment =>
    have := ha rfl
    cases h : sp.alignment with
    | vertical => exact .inl (by simp [rawValue, h])
    | horizontal => exact .inr (by simp [rawValue, h])
    | other => exact absurd h this
  | seriesNames =>
    cases h : sp.seriesName with
    | none => exact .inr (by simp [rawValue, h])
    | some s => exact .inl ⟨s, by simp [rawValue, h]⟩
  | headersCoord => exact ⟨_, rfl⟩
  | composedHeadersCoord =>
    cases h : sp.composedHeaders with
    | none => exact .inr (.inr (by simp [rawValue, h]))
    | some s => exact .inl ⟨s.map .str, by simp [rawValue, h]⟩
  | context => exact absurd rfl hc
  | dataStarts => exact .inl ⟨_, rfl⟩
  | dataEnds =>
    cases h : sp.dataEnds with
    | none => exact .inr (by simp [rawValue, h])
    | some s => exact .inl (.inl ⟨s, by simp [rawValue, h]⟩)
  | continuity => exact hb _
  | blankRows => exact hb _
  | missings => exact hb _
  | missingValue => trivial
  | timeAlignment =>
    have := ht rfl
    simp only [AllowedOne, rawValue, PVal.number]
    rcases this with h | h | h <;> rw [h] <;> simp
  | timeMulticolumn => exact hb _
  | timeHeaderCoord =>
    cases h : sp.timeHeader with
    | single s => exact .inl ⟨s, by simp [rawValue, h]⟩
    | multi s => exact .inr ⟨s.map .str, by simp [rawValue, h]⟩
  | timeComposed => exact hb _
  | frequency => exact absurd rfl hf

section
variable {d : PDict} {ps ts : List Pos} {sps : List SParams}

theorem Spec.Describes.size (h : Describes d ps ts sps) : ps.length = sps.length := by
  have := congrArg List.length h.headerCells
  simpa using this.symm

theorem Spec.Describes.ne (h : Describes d ps ts sps) : ps ≠ [] := by
  intro e
  have := h.size
  rw [e] at this
  exact h.nonempty (List.eq_nil_of_length_eq_zero this.symm)

theorem Spec.Describes.raws_ne (h : Describes d ps ts sps) (n : Name) :
    (sps.map fun sp => rawValue sp n) ≠ [] := by
  simpa using h.nonempty

theorem Spec.Describes.times_size (h : Describes d ps ts sps) :
    ts.length ≤ sps.length ∧ ts ≠ [] := by
  have hpos : 1 ≤ sps.length := List.length_pos_of_ne_nil h.nonempty
  rcases h.timeCells with ⟨t, rfl, _⟩ | ⟨e, _⟩
  · exact ⟨hpos, by simp⟩
  · have := congrArg List.length e
    rw [List.length_map, List.length_map] at this
    refine ⟨by omega, ?_⟩
    rintro rfl
    rw [List.length_nil] at this
    omega

/-- The curated frequency. -/
theorem Spec.Describes.curated (h : Describes d ps ts sps) :
    ∃ v v', d.get? .frequency = some v ∧ curateFreq v = .ok v' ∧ Passes .frequency v' ∧
      GivesEach v' (sps.map fun sp => rawValue sp .frequency) := by
  obtain ⟨v, ss, hv, hg, hf⟩ := h.frequency
  have hlen : ss.length = sps.length := hf.length_eq
  have hss : ss ≠ [] := by
    rintro rfl
    exact h.nonempty (List.eq_nil_of_length_eq_zero hlen.symm)
  have hmap : ss.map (fun s => PVal.str (freqTranslate (upper s))) = sps.map fun sp => rawValue sp .frequency := by
    clear hg hlen hss hv h
    induction hf with
    | nil => rfl
    | cons h1 _ ih =>
      rw [List.map_cons, List.map_cons, ih, ← freqMeans_eq h1.1]
      rfl
  have hcode : ∀ sp ∈ sps, FreqCode sp.frequency := by
    clear hg hlen hss hv hmap h
    induction hf with
    | nil => simp
    | cons h1 _ ih =>
      intro sp hsp
      rcases List.mem_cons.1 hsp with rfl | hsp
      · exact h1.2
      · exact ih sp hsp
  have hcode' : ∀ x ∈ sps.map fun sp => rawValue sp .frequency, ∃ f, x = .str f ∧ FreqCode f := by
    intro x hx
    rw [List.mem_map] at hx
    obtain ⟨sp, hsp, rfl⟩ := hx
    exact ⟨_, rfl, hcode sp hsp⟩
  obtain ⟨s, rest, rfl⟩ := List.exists_cons_of_ne_nil hss
  rcases hg with ⟨hl, hg⟩ | ⟨y, rfl, hg⟩ | rfl
  · have e := hg (.str s) (by simp)
    subst e
    refine ⟨_, .str (freqTranslate (upper s)), hv, rfl, ?_, ?_⟩
    · rw [← hmap] at hcode'
      obtain ⟨f, hf1, hf2⟩ := hcode' _ List.mem_cons_self
      cases hf1
      exact .inl ⟨_, rfl, hf2⟩
    · rw [← hmap]
      refine .inl ⟨(by rintro ⟨_, ⟨⟩⟩), ?_⟩
      intro x hx
      rw [List.mem_map] at hx
      obtain ⟨s', hs', rfl⟩ := hx
      have := hg (.str s') (List.mem_map_of_mem hs')
      cases this
      rfl
  · have e := hg (.str s) (by simp)
    subst e
    refine ⟨_, .list [.str (freqTranslate (upper s))], hv, rfl, ?_, ?_⟩
    · rw [← hmap] at hcode'
      obtain ⟨f, hf1, hf2⟩ := hcode' _ List.mem_cons_self
      cases hf1
      refine .inr ⟨_, rfl, ?_⟩
      intro x hx
      rw [List.mem_singleton] at hx
      exact ⟨_, hx, hf2⟩
    · rw [← hmap]
      refine .inr (.inl ⟨_, rfl, ?_⟩)
      intro x hx
      rw [List.mem_map] at hx
      obtain ⟨s', hs', rfl⟩ := hx
      have := hg (.str s') (List.mem_map_of_mem hs')
      cases this
      rfl
  · refine ⟨_, .list ((s :: rest).map fun s => .str (freqTranslate (upper s))), hv,
      curateFreq_ok.2 (.inr ⟨_, rfl, rfl⟩), ?_, ?_⟩
    · rw [hmap]
      exact .inr ⟨_, rfl, hcode'⟩
    · rw [hmap]
      exact .inr (.inr rfl)

theorem standsFor_allowed {v : PVal} {qs : List Pos} {n : Name} (h : StandsFor v qs)
    (hn : n = .headersCoord ∨ n = .timeHeaderCoord) : Allowed n v := by
  have ha : ∀ s : Str, AllowedOne n (.str s) := by
    intro s
    rcases hn with rfl | rfl
    · exact ⟨s, rfl⟩
    · exact .inl ⟨s, rfl⟩
  refine .inr ⟨by rcases hn with rfl | rfl <;> decide, ?_⟩
  rcases h with ⟨s, rfl, _⟩ | ⟨ss, _, rfl, _⟩
  · exact .inr ⟨by rintro ⟨vs, ⟨⟩⟩, ha s⟩
  · refine .inl ⟨_, rfl, ?_⟩
    intro x hx
    rw [List.mem_map] at hx
    obtain ⟨y, _, rfl⟩ := hx
    exact ha y

/-- A given parameter passes the validation. -/
theorem Spec.Describes.passes (h : Describes d ps ts sps) {n : Name} {v : PVal} (hv : d.get? n = some v)
    (hf : n ≠ .frequency) : v = .none ∨ Allowed n v := by
  have hmiss : Missing d n → v = .none := by
    rintro (h' | h')
    · rw [hv] at h'; cases h'
    · rw [hv] at h'; cases h'; rfl
  have hgive : GivesParam d n sps → n ≠ .context → (∀ sp ∈ sps, n = .alignment → sp.alignment ≠ .other) →
      v = .none ∨ Allowed n v := by
    rintro ⟨w, hw, hg⟩ hc ha
    rw [hv] at hw
    cases hw
    refine .inr (hg.passes (h.raws_ne n) hc ?_)
    intro x hx
    rw [List.mem_map] at hx
    obtain ⟨sp, hsp, rfl⟩ := hx
    exact allowed_raw hc hf (ha sp hsp) fun _ => h.timeAlignment.2 sp hsp
  cases n with
  | alignment =>
    rcases h.alignment with ⟨h1, h2⟩ | ⟨h1, _⟩
    · exact hgive h1 (by decide) fun sp hsp _ => h2 sp hsp
    · exact .inl (hmiss h1)
  | seriesNames =>
    rcases h.optional .seriesNames (by decide) with h1 | ⟨h1, _⟩
    · exact hgive h1 (by decide) fun _ _ e => by cases e
    · exact .inl (hmiss h1)
  | headersCoord =>
    obtain ⟨w, hw, hs⟩ := h.headers
    rw [hv] at hw
    cases hw
    exact .inr (standsFor_allowed hs (.inl rfl))
  | composedHeadersCoord =>
    rcases h.optional .composedHeadersCoord (by decide) with h1 | ⟨h1, _⟩
    · exact hgive h1 (by decide) fun _ _ e => by cases e
    · exact .inl (hmiss h1)
  | context => exact .inl (hmiss h.context.1)
  | dataStarts => exact hgive h.starts (by decide) fun _ _ e => by cases e
  | dataEnds =>
    rcases h.optional .dataEnds (by decide) with h1 | ⟨h1, _⟩
    · exact hgive h1 (by decide) fun _ _ e => by cases e
    · exact .inl (hmiss h1)
  | continuity => exact hgive (h.switches _ (by decide)) (by decide) fun _ _ e => by cases e
  | blankRows => exact hgive (h.switches _ (by decide)) (by decide) fun _ _ e => by cases e
  | missings => exact hgive (h.switches _ (by decide)) (by decide) fun _ _ e => by cases e
  | missingValue =>
    refine .inr (.inr ⟨by decide, ?_⟩)
    by_cases hl : IsListValue v
    · obtain ⟨vs, rfl⟩ := hl
      exact .inl ⟨vs, rfl, fun _ _ => trivial⟩
    · exact .inr ⟨hl, trivial⟩
  | timeAlignment =>
    rcases h.timeAlignment.1 with h1 | ⟨h1, _⟩
    · exact hgive h1 (by decide) fun _ _ e => by cases e
    · exact .inl (hmiss h1)
  | timeMulticolumn =>
    rcases h.multicolumn.1 with h1 | h1
    · exact hgive h1 (by decide) fun _ _ e => by cases e
    · exact .inl (hmiss h1)
  | timeHeaderCoord =>
    obtain ⟨w, hw, hs⟩ := h.times
    rw [hv] at hw
    cases hw
    exact .inr (standsFor_allowed hs (.inr rfl))
  | timeComposed => exact hgive (h.switches _ (by decide)) (by decide) fun _ _ e => by cases e
  | frequency => exact absurd rfl hf

/-- Curating and validating a description. -/
theorem Spec.Describes.curate (h : Describes d ps ts sps) :
    ∃ d1 v', buildCurated d = .ok d1 ∧ d1.Distinct ∧ AllKnown d1 ∧
      GivesEach v' (sps.map fun sp => rawValue sp .frequency) ∧
      d1.get? .frequency = some v' ∧
      (∀ n ∈ useDefault, Missing d n → d1.get? n = defaultValue n) ∧
      (∀ n, n ≠ .frequency → (n ∈ useDefault → ¬ Missing d n) → d1.get? n = d.get? n) := by
  obtain ⟨v, v', hv, hc, hp, hg⟩ := h.curated
  obtain ⟨hw, hh, hsf⟩ := h.headers
  obtain ⟨tw, ht, hts⟩ := h.times
  obtain ⟨sw, hs, hsg⟩ := h.starts
  have hnn : ∀ {w : PVal} {qs : List Pos}, StandsFor w qs → w.isNone = false := by
    intro w qs hsf
    rcases hsf with ⟨s, rfl, _⟩ | ⟨ss, _, rfl, _⟩ <;> rfl
  have hsn : sw.isNone = false := by
    cases sw with
    | none =>
      obtain ⟨sp, rest, rfl⟩ := List.exists_cons_of_ne_nil h.nonempty
      rcases hsg with ⟨_, hx⟩ | ⟨_, ⟨⟩, _⟩ | hx
      · have := hx _ List.mem_cons_self
        cases this
      · cases hx
    | _ => rfl
  have hvn : v.isNone = false := by
    rcases curateFreq_ok.1 hc with ⟨s, rfl, _⟩ | ⟨ss, rfl, _⟩ <;> rfl
  have hcrit : checkHasCritical d critical = .ok () := by
    simp only [critical, checkHasCritical, hh, ht, hs, hv, hnn hsf, hnn hts, hsn, hvn]
    rfl
  have hdist : PDict.Distinct (d.put (.known .frequency) v') := PDict.distinct_put h.distinct _ _
  have hval : validateParams (d.put (.known .frequency) v') = .ok () := by
    rw [validateParams_ok]
    intro kv hkv
    obtain ⟨key, w⟩ := kv
    obtain ⟨n, rfl⟩ := allKnown_put h.known .frequency v' _ hkv
    have hgw := PDict.get?_of_mem hdist hkv
    rw [validateParam_ok]
    by_cases hn : n = .frequency
    · subst hn
      rw [PDict.get?_put_self] at hgw
      cases hgw
      exact .inr hp
    · rw [PDict.get?_put_other _ _ (Ne.symm hn)] at hgw
      rcases h.passes hgw hn with e | e
      · exact .inl e
      · exact .inr ((passes_other hn).2 e)
  have habs : ∀ n, n ≠ .frequency → ((d.put (.known .frequency) v').absent n = true ↔ Missing d n) := by
    intro n hn
    unfold PDict.absent Missing
    rw [PDict.get?_put_other _ _ (Ne.symm hn)]
    cases d.get? n with
    | none => simp
    | some w => cases w <;> simp [PVal.isNone]
  refine ⟨_, v', ?_, missingsToDefault_distinct hdist, allKnown_defaults (allKnown_put h.known _ _), hg, ?_, ?_, ?_⟩
  · unfold buildCurated
    rw [bind_intro hcrit, bind_intro (PDict.get_ok.2 hv), bind_intro hc]
    dsimp only
    rw [bind_intro hval]
    rfl
  · rw [missingsToDefault_get?, if_neg (by simp [useDefault]), PDict.get?_put_self]
  · intro n hn hm
    have hne : n ≠ .frequency := by rintro rfl; exact absurd hn (by decide)
    rw [missingsToDefault_get?, if_pos (by rw [(habs n hne).2 hm]; simpa using hn)]
  · intro n hn hm
    rw [missingsToDefault_get?, if_neg, PDict.get?_put_other _ _ (Ne.symm hn)]
    rw [Bool.and_eq_true, habs n hn]
    rintro ⟨h1, h2⟩
    exact hm (by simpa using h1) h2

/-- Reading the headers, the time headers and the (empty) context of a description. -/
theorem Spec.Describes.unpack (h : Describes d ps ts sps) {d1 : PDict} (hd1 : d1.Distinct) (hk1 : AllKnown d1)
    (hg : ∀ n, n ≠ .frequency → (n ∈ useDefault → ¬ Missing d n) → d1.get? n = d.get? n) :
    ∃ d2, buildHeaders d1 = .ok d2 ∧ d2.Distinct ∧ AllKnown d2 ∧
      d2.get? .headersCoord = some (.list (names ps)) ∧
      d2.get? .timeHeaderCoord = some (.list (names ts)) ∧
      ∀ n, n ≠ .headersCoord → n ≠ .timeHeaderCoord → d2.get? n = d1.get? n := by
  obtain ⟨hc, hh, hsf⟩ := h.headers
  obtain ⟨tc, ht, htf⟩ := h.times
  have hproc : processHeaders hc = .ok (ps.map fun p => ([], .str (coordStr p.1 p.2))) := by
    unfold processHeaders
    rw [bind_intro (unpackRanges_standsFor hsf)]
    exact separateAll_names ps
  have hof : headersOf (ps.map fun p => ([], PVal.str (coordStr p.1 p.2))) = .list (names ps) := by
    unfold headersOf names
    rw [List.map_map]
    rfl
  have hany : anyComposed (ps.map fun p => (([] : List Str), PVal.str (coordStr p.1 p.2))) = false := by
    unfold anyComposed
    rw [List.any_eq_false]
    intro x hx
    rw [List.mem_map] at hx
    obtain ⟨p, _, rfl⟩ := hx
    intro h'
    cases h'
  have hctx : d1.falsy .context = true := by
    unfold PDict.falsy
    rw [hg _ (by decide) (fun h' => absurd h' (by decide))]
    rcases h.context.1 with h' | h' <;> rw [h'] <;> rfl
  have hhead : d1.get? .headersCoord = some hc := by
    rw [hg _ (by decide) (fun h' => absurd h' (by decide))]; exact hh
  have htime : (d1.put (.known .headersCoord) (.list (names ps))).get? .timeHeaderCoord = some tc := by
    rw [PDict.get?_put_other _ _ (by decide), hg _ (by decide) (fun h' => absurd h' (by decide))]
    exact ht
  refine ⟨(d1.put (.known .headersCoord) (.list (names ps))).put (.known .timeHeaderCoord) (.list (names ts)),
    ?_, PDict.distinct_put (PDict.distinct_put hd1 _ _) _ _, allKnown_put (allKnown_put hk1 _ _) _ _, ?_, ?_, ?_⟩
  · unfold buildHeaders
    rw [bind_intro (PDict.get_ok.2 hhead), bind_intro hproc]
    dsimp only
    rw [hof, hany, if_neg (by decide), bind_intro (PDict.get_ok.2 htime), bind_intro (unpackRanges_standsFor htf),
      if_pos]
    · rfl
    · unfold PDict.falsy at hctx ⊢
      rw [PDict.get?_put_other _ _ (by decide), PDict.get?_put_other _ _ (by decide)]
      exact hctx
  · rw [PDict.get?_put_other _ _ (by decide), PDict.get?_put_self]
  · rw [PDict.get?_put_self]
  · intro n h1 h2
    rw [PDict.get?_put_other _ _ (Ne.symm h2), PDict.get?_put_other _ _ (Ne.symm h1)]

theorem Spec.Describes.consistent (h : Describes d ps ts sps) {v : PVal}
    (hv : GivesEach v (sps.map fun sp => rawValue sp .dataStarts)) :
    checkConsistency v (names ps) (d.get? .alignment) = .ok () := by
  have hcells := cellsOf_names h.positive
  have hlen := h.size
  have hne := h.ne
  obtain ⟨p, prest, hps⟩ := List.exists_cons_of_ne_nil hne
  obtain ⟨sp, rest, hsps⟩ := List.exists_cons_of_ne_nil h.nonempty
  have hfirst : firstOrSelf v = .ok (.int sp.dataStarts) := by
    rw [hsps] at hv
    exact hv.first
  have hgt : ∀ n : Nat, (n : Int) < sp.dataStarts → gtInt (.int sp.dataStarts) n = .ok true := by
    intro n hn
    unfold gtInt
    simp [PVal.number]
    exact_mod_cast hn
  unfold checkConsistency
  rw [bind_intro hfirst, bind_intro hcells]
  have hver : assertIf (looksVertical (asInts ps) (d.get? .alignment)) (.int sp.dataStarts)
      ((asInts ps).map (·.1)) = .ok () := by
    unfold assertIf
    split
    next hl =>
      have hlt : (p.1 : Int) < sp.dataStarts := by
        have := h.below (by
          unfold looksVertical at hl
          split at hl
          next a ha => exact .inl (by rw [ha, (pyEq_str _ _).1 hl])
          next ha =>
            rw [Bool.and_eq_true, decide_eq_true_iff] at hl
            refine .inr ⟨ha, ?_, (evidentlyVertical_iff hne).1 hl.2⟩
            have := hl.1
            unfold asInts at this
            rw [List.length_map] at this
            omega)
        rw [hps, hsps] at this
        cases this with
        | cons h1 _ => exact h1
      rw [hps]
      unfold asInts assertAfter
      simp only [List.map_cons]
      rw [hgt _ hlt]
      rfl
    next => rfl
  have hhor : assertIf (looksHorizontal (asInts ps) (d.get? .alignment)) (.int sp.dataStarts)
      ((asInts ps).map (·.2)) = .ok () := by
    unfold assertIf
    split
    next hl =>
      have hlt : (p.2 : Int) < sp.dataStarts := by
        have := h.beside (by
          unfold looksHorizontal at hl
          split at hl
          next a ha => exact .inl (by rw [ha, (pyEq_str _ _).1 hl])
          next ha =>
            rw [Bool.and_eq_true, decide_eq_true_iff] at hl
            refine .inr ⟨ha, ?_, (evidentlyHorizontal_iff hne).1 hl.2⟩
            have := hl.1
            unfold asInts at this
            rw [List.length_map] at this
            omega)
        rw [hps, hsps] at this
        cases this with
        | cons h1 _ => exact h1
      rw [hps]
      unfold asInts assertAfter
      simp only [List.map_cons]
      rw [hgt _ hlt]
      rfl
    next => rfl
  unfold asInts at hver hhor
  rw [bind_intro hver]
  exact hhor

theorem repeated_names {qs : List Pos} (h : isRepeated (.list (names qs)) = true) : ∃ t, ∀ t' ∈ names qs, t' = t := by
  cases qs with
  | nil => exact ⟨.none, by simp [names]⟩
  | cons q qs =>
    refine ⟨.str (coordStr q.1 q.2), ?_⟩
    unfold names at h ⊢
    rw [List.map_cons, isRepeated, List.all_eq_true] at h
    intro t' ht'
    exact (pyEq_str _ _).1 (h t' ht')

theorem all_repeated {qs : List Pos} {t : Pos} (h : ∀ t' ∈ qs, t' = t) (hne : qs ≠ []) :
    commonEntry (.list (names qs)) = .ok (.str (coordStr t.1 t.2)) := by
  obtain ⟨q, rest, rfl⟩ := List.exists_cons_of_ne_nil hne
  have hq := h q List.mem_cons_self
  subst hq
  unfold names
  rw [List.map_cons, commonEntry, if_pos]
  rw [isRepeated, List.all_eq_true]
  intro x hx
  rw [← List.map_cons (f := fun p : Pos => PVal.str (coordStr p.1 p.2)), List.mem_map] at hx
  obtain ⟨y, hy, rfl⟩ := hx
  rw [h y hy]
  exact (pyEq_str _ _).2 rfl

theorem Spec.Describes.notMulti (h : Describes d ps ts sps) :
    guessMulticolumn (.list (names ts)) (some sps.length) = .ok false := by
  have hne := h.times_size.2
  have hsame : ∀ t : Pos, (∀ t' ∈ ts, t' = t) →
      guessMulticolumn (.list (names ts)) (some sps.length) = .ok false := by
    intro t ht
    unfold guessMulticolumn
    rw [all_repeated ht hne]
  rcases h.timeCells with ⟨t, rfl, _⟩ | ⟨e, ⟨t, ht⟩ | ⟨h1, h2, h3⟩⟩
  · exact hsame t (by simp)
  · exact hsame t ht
  · have hlen := congrArg List.length e
    rw [List.length_map, List.length_map] at hlen
    have hcons : consecutiveCells (names ts) = .ok false := by
      obtain ⟨b, hb⟩ := consecutive_total h.timesPositive
      cases b with
      | false => exact hb
      | true =>
        rcases (C65_consecutive_partial ts h.timesPositive).2.1 h3 hb with h' | h'
        · exact absurd h' h1
        · exact absurd h' h2
    unfold guessMulticolumn
    obtain ⟨q, rest, hq⟩ := List.exists_cons_of_ne_nil hne
    have hce : commonEntry (.list (names ts)) = .ok (.str (coordStr q.1 q.2)) ∨
        commonEntry (.list (names ts)) = .ok (.list (names ts)) := by
      rw [hq]
      unfold names
      rw [List.map_cons, commonEntry]
      split
      · exact .inl rfl
      · exact .inr rfl
    rcases hce with e' | e'
    · rw [e']
    · rw [e']
      dsimp only
      rw [if_neg (by simp [names, hlen]), hcons]

/-- What the curated dictionary says about the parameters that are not cells. -/
theorem Spec.Describes.after (h : Describes d ps ts sps) {d1 : PDict}
    {f : PVal} (hf : GivesEach f (sps.map fun sp => rawValue sp .frequency)) (hf1 : d1.get? .frequency = some f)
    (hdef : ∀ n ∈ useDefault, Missing d n → d1.get? n = defaultValue n)
    (hg1 : ∀ n, n ≠ .frequency → (n ∈ useDefault → ¬ Missing d n) → d1.get? n = d.get? n) (n : Name)
    (hn1 : n ≠ .headersCoord) (hn2 : n ≠ .timeHeaderCoord) (hn3 : n ≠ .missingValue) :
    (∃ v, d1.get? n = some v ∧ GivesEach v (sps.map fun sp => rawValue sp n)) ∨
    (Missing d1 n ∧ n ∈ optionalNames ∧ ∀ sp ∈ sps, rawValue sp n = .none) ∨
    (Missing d1 n ∧ n = .timeMulticolumn) ∨
    (Missing d1 n ∧ n = .alignment) := by
  have hsame : n ≠ .frequency → n ∉ useDefault → d1.get? n = d.get? n := fun h1 h2 => hg1 n h1 fun h3 => absurd h3 h2
  have hmiss : n ≠ .frequency → n ∉ useDefault → Missing d n → Missing d1 n := by
    intro h1 h2 h3
    unfold Missing at h3 ⊢
    rwa [hsame h1 h2]
  have hgive : n ≠ .frequency → n ∉ useDefault → GivesParam d n sps →
      ∃ v, d1.get? n = some v ∧ GivesEach v (sps.map fun sp => rawValue sp n) := by
    rintro h1 h2 ⟨v, hv, hg⟩
    exact ⟨v, by rw [hsame h1 h2, hv], hg⟩
  cases n with
  | alignment =>
    rcases h.alignment with ⟨h1, _⟩ | ⟨h1, _⟩
    · exact .inl (hgive (by decide) (by decide) h1)
    · exact .inr (.inr (.inr ⟨hmiss (by decide) (by decide) h1, rfl⟩))
  | seriesNames =>
    rcases h.optional .seriesNames (by decide) with h1 | ⟨h1, h2⟩
    · exact .inl (hgive (by decide) (by decide) h1)
    · exact .inr (.inl ⟨hmiss (by decide) (by decide) h1, by decide, h2⟩)
  | headersCoord => exact absurd rfl hn1
  | composedHeadersCoord =>
    rcases h.optional .composedHeadersCoord (by decide) with h1 | ⟨h1, h2⟩
    · exact .inl (hgive (by decide) (by decide) h1)
    · exact .inr (.inl ⟨hmiss (by decide) (by decide) h1, by decide, h2⟩)
  | context =>
    refine .inr (.inl ⟨hmiss (by decide) (by decide) h.context.1, by decide, ?_⟩)
    intro sp hsp
    simp only [rawValue, h.context.2 sp hsp]
    rfl
  | dataStarts => exact .inl (hgive (by decide) (by decide) h.starts)
  | dataEnds =>
    rcases h.optional .dataEnds (by decide) with h1 | ⟨h1, h2⟩
    · exact .inl (hgive (by decide) (by decide) h1)
    · exact .inr (.inl ⟨hmiss (by decide) (by decide) h1, by decide, h2⟩)
  | continuity => exact .inl (hgive (by decide) (by decide) (h.switches _ (by decide)))
  | blankRows => exact .inl (hgive (by decide) (by decide) (h.switches _ (by decide)))
  | missings => exact .inl (hgive (by decide) (by decide) (h.switches _ (by decide)))
  | missingValue => exact absurd rfl hn3
  | timeAlignment =>
    by_cases hm : Missing d .timeAlignment
    · refine .inl ⟨.int 0, hdef _ (by decide) hm, .inl ⟨by rintro ⟨_, ⟨⟩⟩, ?_⟩⟩
      have h0 : ∀ sp ∈ sps, sp.timeAlignment = 0 := by
        rcases h.timeAlignment.1 with ⟨v, hv, hg⟩ | ⟨_, h0⟩
        · rcases hm with hm | hm
          · rw [hm] at hv; cases hv
          · rw [hm] at hv
            cases hv
            intro sp hsp
            have hne := h.raws_ne .timeAlignment
            rcases hg with ⟨_, hg⟩ | ⟨_, ⟨⟩, _⟩ | hg
            · have := hg _ (List.mem_map_of_mem hsp)
              cases this
            · cases hg
        · exact h0
      intro x hx
      rw [List.mem_map] at hx
      obtain ⟨sp, hsp, rfl⟩ := hx
      simp only [rawValue, h0 sp hsp]
    · rcases h.timeAlignment.1 with ⟨v, hv, hg⟩ | ⟨h1, _⟩
      · exact .inl ⟨v, by rw [hg1 _ (by decide) (fun _ => hm), hv], hg⟩
      · exact absurd h1 hm
  | timeMulticolumn =>
    rcases h.multicolumn.1 with h1 | h1
    · exact .inl (hgive (by decide) (by decide) h1)
    · exact .inr (.inr (.inl ⟨hmiss (by decide) (by decide) h1, rfl⟩))
  | timeHeaderCoord => exact absurd rfl hn2
  | timeComposed => exact .inl (hgive (by decide) (by decide) (h.switches _ (by decide)))
  | frequency => exact .inl ⟨f, hf1, hf⟩

/-- The number of series of a description whose headers have been read. -/
theorem Spec.Describes.num (h : Describes d ps ts sps) {d1 d2 : PDict} (hd2 : d2.Distinct) (hk2 : AllKnown d2)
    {f : PVal} (hf : GivesEach f (sps.map fun sp => rawValue sp .frequency)) (hf1 : d1.get? .frequency = some f)
    (hdef : ∀ n ∈ useDefault, Missing d n → d1.get? n = defaultValue n)
    (hg1 : ∀ n, n ≠ .frequency → (n ∈ useDefault → ¬ Missing d n) → d1.get? n = d.get? n)
    (hh : d2.get? .headersCoord = some (.list (names ps)))
    (ht : d2.get? .timeHeaderCoord = some (.list (names ts)))
    (hg : ∀ n, n ≠ .headersCoord → n ≠ .timeHeaderCoord → d2.get? n = d1.get? n) :
    numSeries d2 = some sps.length := by
  have hraw : ∀ n, (sps.map fun sp => rawValue sp n).length = sps.length := fun n => List.length_map _
  unfold numSeries
  rw [((numSeriesFrom_spec d2 none).2 sps.length)]
  refine ⟨.inr ⟨.known .headersCoord, names ps, PDict.mem_of_get? hh, by decide, by simp [names, h.size]⟩,
    by intro a ha; (cases ha), ?_⟩
  intro k vs hm hk
  obtain ⟨n, hn⟩ := hk2 _ hm
  dsimp only at hn
  subst hn
  have hget := PDict.get?_of_mem hd2 hm
  by_cases h1 : n = .headersCoord
  · subst h1
    rw [hh] at hget
    cases hget
    simp [names, h.size]
  by_cases h2 : n = .timeHeaderCoord
  · subst h2
    rw [ht] at hget
    cases hget
    simpa [names] using h.times_size.1
  have h3 : n ≠ .missingValue := by rintro rfl; exact hk rfl
  rw [hg n h1 h2] at hget
  have hnot : ¬ Missing d1 n := by
    rintro (h' | h') <;> rw [hget] at h' <;> cases h'
  rcases h.after hf hf1 hdef hg1 n h1 h2 h3 with ⟨v, hv, hgv⟩ | ⟨h', _⟩ | ⟨h', _⟩ | ⟨h', _⟩
  · rw [hget] at hv
    cases hv
    have := hgv.short (h.raws_ne n)
    rwa [hraw] at this
  · exact absurd h' hnot
  · exact absurd h' hnot
  · exact absurd h' hnot

/-- The guesses made for a description. -/
theorem Spec.Describes.guess (h : Describes d ps ts sps) {d1 d2 : PDict} (hd2 : d2.Distinct) (hk2 : AllKnown d2)
    {f : PVal} (hf : GivesEach f (sps.map fun sp => rawValue sp .frequency)) (hf1 : d1.get? .frequency = some f)
    (hdef : ∀ n ∈ useDefault, Missing d n → d1.get? n = defaultValue n)
    (hg1 : ∀ n, n ≠ .frequency → (n ∈ useDefault → ¬ Missing d n) → d1.get? n = d.get? n)
    (hh : d2.get? .headersCoord = some (.list (names ps)))
    (ht : d2.get? .timeHeaderCoord = some (.list (names ts)))
    (hg : ∀ n, n ≠ .headersCoord → n ≠ .timeHeaderCoord → d2.get? n = d1.get? n) :
    ∃ d3 m, buildGuesses d2 = .ok d3 ∧ d3.Distinct ∧ AllKnown d3 ∧
      d3.get? .timeMulticolumn = some m ∧ GivesEach m (sps.map fun sp => rawValue sp .timeMulticolumn) ∧
      (∃ a, d3.get? .alignment = some a ∧ GivesEach a (sps.map fun sp => rawValue sp .alignment) ∧ a ≠ .none) ∧
      ∀ n, n ≠ .timeMulticolumn → n ≠ .alignment → d3.get? n = d2.get? n := by
  have hnum := h.num hd2 hk2 hf hf1 hdef hg1 hh ht hg
  obtain ⟨sv, hsv, hsg⟩ := h.starts
  have hfalse : GivesEach (.bool false) (sps.map fun sp => rawValue sp .timeMulticolumn) := by
    refine .inl ⟨by rintro ⟨_, ⟨⟩⟩, ?_⟩
    intro x hx
    rw [List.mem_map] at hx
    obtain ⟨sp, hsp, rfl⟩ := hx
    simp only [rawValue, h.multicolumn.2 sp hsp]
  have hmulti : ∃ e m, guessMultiStep d2 = .ok e ∧ e.Distinct ∧ AllKnown e ∧
      e.get? .timeMulticolumn = some m ∧ GivesEach m (sps.map fun sp => rawValue sp .timeMulticolumn) ∧
      ∀ n, n ≠ .timeMulticolumn → e.get? n = d2.get? n := by
    unfold guessMultiStep
    split
    next hfal =>
      refine ⟨d2.put (.known .timeMulticolumn) (.bool false), .bool false, ?_, PDict.distinct_put hd2 _ _,
        allKnown_put hk2 _ _, PDict.get?_put_self _ _ _, hfalse, fun n hn => PDict.get?_put_other _ _ (Ne.symm hn)⟩
      rw [bind_intro (PDict.get_ok.2 ht), hnum, bind_intro h.notMulti]
      rfl
    next hfal =>
      rcases h.after hf hf1 hdef hg1 .timeMulticolumn (by decide) (by decide) (by decide) with
        ⟨v, hv, hgv⟩ | ⟨_, h', _⟩ | ⟨h', _⟩ | ⟨_, h'⟩
      · exact ⟨d2, v, rfl, hd2, hk2, by rw [hg _ (by decide) (by decide), hv], hgv, fun _ _ => rfl⟩
      · exact absurd h' (by decide)
      · exfalso
        apply hfal
        unfold PDict.falsy
        rw [hg _ (by decide) (by decide)]
        rcases h' with h' | h' <;> rw [h'] <;> rfl
      · cases h'
  obtain ⟨e, m, he, hde, hke, hm, hmg, hge⟩ := hmulti
  have hal0 : e.get? .alignment = d.get? .alignment := by
    rw [hge _ (by decide), hg _ (by decide) (by decide), hg1 _ (by decide) (fun h' => absurd h' (by decide))]
  have hstep : ∃ d3 a, guessAlignStep (names ps) e = .ok d3 ∧ d3.Distinct ∧ AllKnown d3 ∧
      d3.get? .alignment = some a ∧ GivesEach a (sps.map fun sp => rawValue sp .alignment) ∧ a ≠ .none ∧
      ∀ n, n ≠ .alignment → d3.get? n = e.get? n := by
    unfold guessAlignStep
    rcases h.alignment with ⟨⟨v, hv, hgv⟩, hother⟩ | ⟨hmiss, al, hshown, hall⟩
    · obtain ⟨sp, rest, hsps⟩ := List.exists_cons_of_ne_nil h.nonempty
      have hraw : rawValue sp .alignment = .str c!"vertical" ∨ rawValue sp .alignment = .str c!"horizontal" := by
        have := hother sp (by rw [hsps]; exact List.mem_cons_self)
        cases ha : sp.alignment with
        | vertical => exact .inl (by simp [rawValue, ha])
        | horizontal => exact .inr (by simp [rawValue, ha])
        | other => exact absurd ha this
      have htr : v.truthy = true ∧ v ≠ .none := by
        rw [hsps, List.map_cons] at hgv
        rcases hgv with ⟨_, hx⟩ | ⟨y, rfl, _⟩ | rfl
        · have := hx _ List.mem_cons_self
          rw [← this]
          rcases hraw with e | e <;> rw [e] <;> exact ⟨rfl, by simp⟩
        · exact ⟨rfl, by simp⟩
        · exact ⟨rfl, by simp⟩
      refine ⟨e, v, ?_, hde, hke, by rw [hal0, hv], hgv, htr.2, fun _ _ => rfl⟩
      rw [if_neg]
      unfold PDict.falsy
      rw [hal0, hv]
      simp [htr.1]
    · obtain ⟨a, hguess, hna, hnl, hraw⟩ : ∃ a, guessAlignment (names ps) = .ok a ∧ a ≠ .none ∧
          ¬ IsListValue a ∧ ∀ sp ∈ sps, rawValue sp .alignment = a := by
        rcases hshown with ⟨rfl, hs⟩ | ⟨rfl, hs⟩
        · exact ⟨_, (C41_vertical ps h.positive).2 hs, by simp, by rintro ⟨_, ⟨⟩⟩,
            fun sp hsp => by simp only [rawValue, hall sp hsp]⟩
        · exact ⟨_, (C41_horizontal ps h.positive).2 hs, by simp, by rintro ⟨_, ⟨⟩⟩,
            fun sp hsp => by simp only [rawValue, hall sp hsp]⟩
      refine ⟨e.put (.known .alignment) a, a, ?_, PDict.distinct_put hde _ _, allKnown_put hke _ _,
        PDict.get?_put_self _ _ _, .inl ⟨hnl, ?_⟩, hna, fun n hn => PDict.get?_put_other _ _ (Ne.symm hn)⟩
      · rw [if_pos]
        · rw [bind_intro hguess]
          rfl
        · unfold PDict.falsy
          rw [hal0]
          rcases hmiss with h' | h' <;> rw [h'] <;> rfl
      · intro x hx
        rw [List.mem_map] at hx
        obtain ⟨sp, hsp, rfl⟩ := hx
        exact hraw sp hsp
  obtain ⟨d3, a, h3, hd3, hk3, ha3, hga3, hna, hg3⟩ := hstep
  refine ⟨d3, m, ?_, hd3, hk3, by rw [hg3 _ (by decide), hm], hmg, ⟨a, ha3, hga3, hna⟩,
    fun n h1 h2 => by rw [hg3 n h2, hge n h1]⟩
  unfold buildGuesses
  have hsv2 : d2.get? .dataStarts = some sv := by
    rw [hg _ (by decide) (by decide), hg1 _ (by decide) (fun h' => absurd h' (by decide))]
    exact hsv
  rw [bind_intro (PDict.get_ok.2 hsv2), bind_intro (PDict.get_ok.2 hh)]
  dsimp only
  rw [show d2.get? .alignment = d.get? .alignment by
    rw [hg _ (by decide) (by decide), hg1 _ (by decide) (fun h' => absurd h' (by decide))],
    bind_intro (h.consistent hsg), bind_intro he]
  exact h3

/-- The time headers of a description, repeated or not. -/
theorem Spec.Describes.applyTimes (h : Describes d ps ts sps) {m : PVal}
    (hm : GivesEach m (sps.map fun sp => rawValue sp .timeMulticolumn)) :
    applyToAll .timeHeaderCoord (.list (names ts)) (some sps.length) m =
      .ok (.list (sps.map fun sp => rawValue sp .timeHeaderCoord)) := by
  obtain ⟨sp, rest, hsps⟩ := List.exists_cons_of_ne_nil h.nonempty
  have hpos : 1 ≤ sps.length := List.length_pos_of_ne_nil h.nonempty
  have hfirst : firstOrSelf m = .ok (.bool false) := by
    have := hm
    rw [hsps, List.map_cons] at this
    rw [this.first]
    simp only [rawValue, h.multicolumn.2 sp (by rw [hsps]; exact List.mem_cons_self)]
  obtain ⟨q, qs, hq⟩ := List.exists_cons_of_ne_nil h.times_size.2
  have hgen : applyToAll .timeHeaderCoord (.list (names ts)) (some sps.length) m =
      .ok (applyGeneric (.list (names ts)) (some sps.length) (validValues .timeHeaderCoord)) := by
    rw [hq]
    unfold applyToAll applyTimeHeader names
    dsimp only [List.map]
    rw [hfirst]
    rfl
  rw [hgen]
  congr 1
  have he : GivesEach (.list (names ts)) (sps.map fun sp => rawValue sp .timeHeaderCoord) := by
    rcases h.timeCells with ⟨t, rfl, ht⟩ | ⟨e, _⟩
    · refine .inr (.inl ⟨_, rfl, ?_⟩)
      intro y hy
      rw [List.mem_map] at hy
      obtain ⟨sp, hsp, rfl⟩ := hy
      simp only [rawValue, ht sp hsp]
    · refine .inr (.inr ?_)
      congr 1
      have : (sps.map (·.timeHeader)).map (fun th => match th with
          | .single c => PVal.str c | .multi cs => .list (cs.map .str)) =
          (ts.map fun t => TimeHeader.single (coordStr t.1 t.2)).map (fun th => match th with
          | .single c => PVal.str c | .multi cs => .list (cs.map .str)) := by rw [e]
      rw [List.map_map, List.map_map] at this
      exact this.symm
  have := he.apply (vs := validValues .timeHeaderCoord) (h.raws_ne _) (.inl (by simp))
  rwa [List.length_map] at this

theorem Spec.GivesMarkers.apply {v : PVal} {ms : List PVal} (h : GivesMarkers v ms) (hne : ms ≠ []) :
    applyMissingValue v (some ms.length) = .ok (.list ms) := by
  rcases h with ⟨hl, hn, h⟩ | ⟨xs, rfl, hx, h⟩ | ⟨rfl, h⟩
  · have e : ms = List.replicate ms.length (.list [v]) := List.eq_replicate_iff.2 ⟨rfl, h⟩
    unfold applyMissingValue
    split
    · exact absurd ⟨_, rfl⟩ hl
    · exact absurd ⟨_, rfl⟩ hl
    · rw [repeatFor, ← e]
  · have e : ms = List.replicate ms.length (.list xs) := List.eq_replicate_iff.2 ⟨rfl, h⟩
    unfold applyMissingValue
    split
    next y rest heq =>
      cases heq
      exact absurd ⟨_, rfl⟩ (hx _ _ rfl)
    next _ heq =>
      cases heq
      rw [repeatFor, ← e]
    next h1 h2 => exact absurd rfl (h2 _)
  · obtain ⟨m, rest, rfl⟩ := List.exists_cons_of_ne_nil hne
    obtain ⟨x, rfl⟩ := h m List.mem_cons_self
    unfold applyMissingValue
    dsimp only
    rw [if_pos (by rw [List.length_cons])]

/-- A complete description is built into the parameters of its series. -/
theorem new_describes (h : Describes d ps ts sps) : ∃ p, Params.new (.dict d) = .ok p ∧ HasSeries p sps := by
  obtain ⟨d1, f, e1, hd1, hk1, hf, hf1, hdef, hg1⟩ := h.curate
  obtain ⟨d2, e2, hd2, hk2, hh2, ht2, hg2⟩ := h.unpack hd1 hk1 hg1
  obtain ⟨d3, m, e3, hd3, hk3, hm, hmg, ⟨a, ha3, hga3, hna⟩, hg3⟩ := h.guess hd2 hk2 hf hf1 hdef hg1 hh2 ht2 hg2
  have hN := h.num hd2 hk2 hf hf1 hdef hg1 hh2 ht2 hg2
  have hraw : ∀ n, (sps.map fun sp => rawValue sp n).length = sps.length := fun n => List.length_map _
  have hpos : 1 ≤ sps.length := List.length_pos_of_ne_nil h.nonempty
  have hgeneric : ∀ {n : Name} {v : PVal} {N : Nat}, n ≠ .timeHeaderCoord → n ≠ .missingValue →
      applyToAll n v (some N) m = .ok (applyGeneric v (some N) (validValues n)) := by
    intro n v N h1 h2
    unfold applyToAll
    cases n <;> first | rfl | contradiction
  -- what each parameter becomes
  have key : ∀ n, (∃ v, d3.get? n = some v ∧
      applyToAll n v (some sps.length) m = .ok (.list (sps.map fun sp => rawValue sp n))) ∨
      (d3.get? n = none ∧ n ∈ optionalNames ∧ ∀ sp ∈ sps, rawValue sp n = .none) := by
    intro n
    by_cases h1 : n = .headersCoord
    · subst h1
      refine .inl ⟨.list (names ps), by rw [hg3 _ (by decide) (by decide), hh2], ?_⟩
      rw [hgeneric (by decide) (by decide)]
      have e : names ps = sps.map fun sp => rawValue sp .headersCoord := by
        have : (sps.map (·.headerCoord)).map PVal.str = (ps.map fun p => coordStr p.1 p.2).map PVal.str := by
          rw [h.headerCells]
        rw [List.map_map, List.map_map] at this
        exact this.symm
      rw [e, applyGeneric_full (hraw _)]
    by_cases h2 : n = .timeHeaderCoord
    · subst h2
      exact .inl ⟨.list (names ts), by rw [hg3 _ (by decide) (by decide), ht2], h.applyTimes hmg⟩
    by_cases h3 : n = .missingValue
    · subst h3
      have e3 : d3.get? .missingValue = d1.get? .missingValue := by
        rw [hg3 _ (by decide) (by decide), hg2 _ (by decide) (by decide)]
      have hmk : ∃ v, d1.get? .missingValue = some v ∧ GivesMarkers v (sps.map (·.missingValue)) := by
        have hdefault : Missing d .missingValue → (∀ sp ∈ sps, sp.missingValue = defaultMissingValue) →
            ∃ v, d1.get? .missingValue = some v ∧ GivesMarkers v (sps.map (·.missingValue)) := by
          intro hmiss hall
          refine ⟨defaultMissingValue, hdef _ (by decide) hmiss, .inr (.inl ⟨_, rfl, ?_, ?_⟩)⟩
          · intro x rest e
            cases e
            rintro ⟨_, ⟨⟩⟩
          · intro x hx
            rw [List.mem_map] at hx
            obtain ⟨sp, hsp, rfl⟩ := hx
            exact hall sp hsp
        rcases h.markers with ⟨v, hv, hg⟩ | ⟨hmiss, hall⟩
        · refine ⟨v, ?_, hg⟩
          rw [hg1 _ (by decide), hv]
          intro _
          rintro (h' | h')
          · rw [hv] at h'; cases h'
          · rw [hv] at h'
            cases h'
            rcases hg with ⟨_, hne, _⟩ | ⟨_, ⟨⟩, _⟩ | ⟨hg, _⟩
            · exact hne rfl
            · cases hg
        · exact hdefault hmiss hall
      obtain ⟨v, hv, hg⟩ := hmk
      refine .inl ⟨v, by rw [e3, hv], ?_⟩
      have := hg.apply (by simpa using h.nonempty)
      rw [List.length_map] at this
      exact this
    by_cases h4 : n = .timeMulticolumn
    · subst h4
      refine .inl ⟨m, hm, ?_⟩
      rw [hgeneric (by decide) (by decide)]
      have := hmg.apply (vs := validValues .timeMulticolumn) (h.raws_ne _) (.inl (by
        rintro rfl
        obtain ⟨sp, rest, hsps⟩ := List.exists_cons_of_ne_nil h.nonempty
        rw [hsps] at hmg
        rcases hmg with ⟨_, hx⟩ | ⟨_, ⟨⟩, _⟩ | hx
        · have := hx _ List.mem_cons_self
          cases this
        · cases hx))
      rw [hraw] at this
      rw [this]
    by_cases h5 : n = .alignment
    · subst h5
      refine .inl ⟨a, ha3, ?_⟩
      rw [hgeneric (by decide) (by decide)]
      have := hga3.apply (vs := validValues .alignment) (h.raws_ne _) (.inl hna)
      rw [hraw] at this
      rw [this]
    have e3 : d3.get? n = d1.get? n := by rw [hg3 _ h4 h5, hg2 _ h1 h2]
    rcases h.after hf hf1 hdef hg1 n h1 h2 h3 with ⟨v, hv, hg⟩ | ⟨hmiss, hopt, hall⟩ | ⟨_, h'⟩ | ⟨_, h'⟩
    · refine .inl ⟨v, by rw [e3, hv], ?_⟩
      rw [hgeneric h2 h3]
      have := hg.apply (vs := validValues n) (h.raws_ne _) (by
        by_cases hvn : v = .none
        · right
          subst hvn
          obtain ⟨sp, rest, hsps⟩ := List.exists_cons_of_ne_nil h.nonempty
          rw [hsps] at hg
          have hr : rawValue sp n = .none := by
            rcases hg with ⟨_, hx⟩ | ⟨_, ⟨⟩, _⟩ | hx
            · exact hx _ List.mem_cons_self
            · cases hx
          cases n <;> first | rfl | (simp [rawValue] at hr; done) | contradiction
        · exact .inl hvn)
      rw [hraw] at this
      rw [this]
    · rcases hmiss with hmiss | hmiss
      · exact .inr ⟨by rw [e3, hmiss], hopt, hall⟩
      · refine .inl ⟨.none, by rw [e3, hmiss], ?_⟩
        rw [hgeneric h2 h3, applyGeneric_none hpos (by
          revert hopt
          cases n <;> decide)]
        congr 2
        symm
        rw [List.eq_replicate_iff]
        refine ⟨hraw n, ?_⟩
        intro x hx
        rw [List.mem_map] at hx
        obtain ⟨sp, hsp, rfl⟩ := hx
        exact hall sp hsp
    · exact absurd h' h4
    · exact absurd h' h5
  obtain ⟨d4, e4⟩ := applyEach_forward (N := sps.length) (multi := m) hk3 (by
    intro n v hmem
    have hg := PDict.get?_of_mem hd3 hmem
    rcases key n with ⟨w, hw, hw'⟩ | ⟨hw, _⟩
    · rw [hg] at hw
      cases hw
      exact ⟨_, hw'⟩
    · rw [hg] at hw
      cases hw)
  refine ⟨fun n => ((applyOptional (some sps.length) d4).get? n).getD .none, ?_, ?_⟩
  · obtain ⟨hc, hh, _⟩ := h.headers
    unfold Params.new
    dsimp only
    rw [if_neg (by rintro rfl; cases hh)]
    unfold Params.ofDict build
    rw [bind_intro e1, bind_intro e2]
    dsimp only
    rw [hN, bind_intro e3, bind_intro (PDict.get_ok.2 hm), bind_intro e4]
    rfl
  · intro n
    dsimp only
    rw [applyOptional_get?]
    have hrep : (∀ sp ∈ sps, rawValue sp n = .none) → n ∈ optionalNames →
        applyGeneric .none (some sps.length) (validValues n) = .list (sps.map fun sp => rawValue sp n) := by
      intro hall hopt
      rw [applyGeneric_none hpos (by
        revert hopt
        cases n <;> decide)]
      congr 1
      symm
      rw [List.eq_replicate_iff]
      refine ⟨hraw n, ?_⟩
      intro x hx
      rw [List.mem_map] at hx
      obtain ⟨sp, hsp, rfl⟩ := hx
      exact hall sp hsp
    rcases key n with ⟨v, hv, hv'⟩ | ⟨hv, hopt, hall⟩
    · obtain ⟨v', h1, h2⟩ := (applyEach_get? e4 n).1 v hv
      rw [hv'] at h1
      cases h1
      rw [if_neg, h2]
      · rfl
      · unfold PDict.falsy
        rw [h2]
        obtain ⟨sp, rest, hsps⟩ := List.exists_cons_of_ne_nil h.nonempty
        rw [hsps]
        simp [PVal.truthy]
    · have h2 := (applyEach_get? e4 n).2 hv
      rw [if_pos, hrep hall hopt]
      · rfl
      · unfold PDict.falsy
        rw [h2]
        simpa using hopt

end

end Xls
