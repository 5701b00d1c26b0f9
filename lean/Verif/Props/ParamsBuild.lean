/-
C31-C35: what the constructor of `Parameters` accepts, refuses and stores.
-/
import Verif.Lemmas.Validate
import Verif.Spec.ParamSamples

set_option autoImplicit false

namespace Xls
open Spec

/-! ### C31: critical parameters -/

theorem new_dict_error {d : PDict} (hd : d ≠ []) (e : Err) :
    Params.new (.dict d) = .error e ↔ build d = .error e := by
  simp only [Params.new]
  rw [if_neg hd]
  unfold Params.ofDict
  cases h : build d with
  | error e' => constructor <;> intro h' <;> cases h' <;> rfl
  | ok b => constructor <;> intro h' <;> cases h'

theorem critical_no_none : ∀ n ∈ critical, hasNone (validValues n) = false := by decide

/-- A non-empty dictionary is refused as incomplete exactly when a critical parameter is missing. -/
theorem C31_critical_missing (d : PDict) (hd : d ≠ []) :
    Params.new (.dict d) = .error .criticalParameterMissing ↔
      Missing d .timeHeaderCoord ∨ Missing d .headersCoord ∨ Missing d .dataStarts ∨
        Missing d .frequency := by
  have key : (∃ n ∈ critical, d.absent n = true) ↔
      Missing d .timeHeaderCoord ∨ Missing d .headersCoord ∨ Missing d .dataStarts ∨
        Missing d .frequency := by
    simp [critical, absent_iff]
  rw [new_dict_error hd, ← key, ← (checkHasCritical_iff d critical critical_no_none).1]
  constructor
  · intro h
    have h := build_error h rfl
    unfold buildCurated at h
    cases h1 : checkHasCritical d critical with
    | error e => rw [h1] at h; cases h; rfl
    | ok u =>
      rw [h1] at h
      exfalso
      cases h2 : d.get .frequency with
      | error e =>
        have := (mild_get d .frequency).out e h2
        have e' : (Except.error e : Except Err PDict) = .error .criticalParameterMissing := by
          rw [← h, h2]; rfl
        cases e'
        cases this
      | ok f =>
        have h : (do
            let f' ← curateFreq f
            validateParams (d.put (.known .frequency) f')
            return missingsToDefault (d.put (.known .frequency) f')) =
            .error .criticalParameterMissing := by rw [← h, h2]; rfl
        cases h3 : curateFreq f with
        | error e =>
          have := (mild_curateFreq f).out e h3
          rw [h3] at h
          cases h
          cases this
        | ok f' =>
          rw [h3] at h
          cases h4 : validateParams (d.put (.known .frequency) f') with
          | error e =>
            have h : (do
                validateParams (d.put (.known .frequency) f')
                return missingsToDefault (d.put (.known .frequency) f')) =
                .error .criticalParameterMissing := h
            rw [h4] at h
            cases h
            rcases validateParams_error h4 with h | ⟨h, _⟩ | h <;> cases h
          | ok u =>
            have h : (do
                validateParams (d.put (.known .frequency) f')
                return missingsToDefault (d.put (.known .frequency) f')) =
                .error .criticalParameterMissing := h
            rw [h4] at h
            cases h
  · intro h
    unfold build buildCurated
    rw [h]
    rfl

/-- An empty dictionary gives an object in which everything is missing. -/
theorem C31_empty_dictionary (p : Params) :
    Params.new (.dict []) = .ok p ↔ ∀ n, p n = .none := by
  simp only [Params.new, if_true, Except.ok.injEq]
  constructor
  · rintro rfl n; rfl
  · intro h; funext n; rw [h n]; rfl

example : Params.new (.dict (Sample.two.filter fun kv => kv.1 ≠ .known .dataStarts)) =
    .error .criticalParameterMissing ∧
    Params.new (.dict (Sample.two.put (.known .frequency) .none)) =
      .error .criticalParameterMissing ∧
    ∃ p, Params.new (.dict Sample.two) = .ok p := ⟨rfl, rfl, _, rfl⟩

/-! ### C33: only valid values and known names -/

theorem curated_no_typeError {f f' : PVal} (h : curateFreq f = .ok f') :
    validateParam (.known .frequency) f' ≠ .error .typeError := by
  have key : ∀ (w : PVal) (ss : List Str),
      validateValues (.known .frequency) w (ss.map .str) ≠ .error .typeError := by
    intro w ss
    induction ss with
    | nil => intro h; cases h
    | cons s ss ih =>
      simp only [List.map_cons, validateValues]
      split
      · next e he =>
        simp only [validateValue, validFreq_str] at he
        split at he
        · cases he
        · cases he; intro h; cases h
      · exact ih
  rcases curateFreq_ok.1 h with ⟨s, rfl, rfl⟩ | ⟨ss, rfl, rfl⟩
  · exact key _ [_]
  · have := key (.list (ss.map fun s => .str (freqTranslate (upper s))))
      (ss.map fun s => freqTranslate (upper s))
    simp only [List.map_map] at this
    exact this

theorem validateParams_typeError {d : PDict} (h : validateParams d = .error .typeError) :
    ∃ v, (Key.known .frequency, v) ∈ d ∧
      validateParam (.known .frequency) v = .error .typeError := by
  induction d with
  | nil => cases h
  | cons kv d ih =>
    obtain ⟨k, v⟩ := kv
    rw [validateParams] at h
    split at h
    · next e' h' =>
      cases h
      rcases validateParam_error h' with h | ⟨h, _⟩ | ⟨_, rfl⟩
      · cases h
      · cases h
      · exact ⟨v, by simp, h'⟩
    · obtain ⟨w, hw, h⟩ := ih h
      exact ⟨w, List.mem_cons_of_mem _ hw, h⟩

/-- A successful build means that every name is known and every value given is allowed. -/
theorem C33_only_valid (d : PDict) (p : Params) (hd : DistinctKeys d)
    (h : Params.new (.dict d) = .ok p) :
    ∀ k v, (k, v) ∈ d → ∃ n, k = .known n ∧ (v = .none ∨ Allowed n v) := by
  by_cases hd0 : d = []
  · subst hd0; simp
  obtain ⟨d1, d2, d3, d4, ps, thc', multi, n, hb⟩ := ofDict_ok (new_dict_ok h hd0)
  intro k v hkv
  obtain ⟨f, f', hf, hc, hv, hd1⟩ := hb.curated.curated
  obtain ⟨m, rfl⟩ : ∃ m, k = .known m := by
    have h1 : k ∈ (d.put (.known .frequency) f').map (·.1) :=
      (PDict.keys_put _ _ _ _).2 (Or.inl (List.mem_map_of_mem (f := (·.1)) hkv))
    have h2 := hb.headers.keys k (by rw [hd1]; exact missingsToDefault_keys _ k h1)
    have h3 := hb.guessed.keys k h2
    simp only [List.mem_map] at h3
    obtain ⟨kv, hkv', rfl⟩ := h3
    exact applyEach_known hb.applied kv hkv'
  refine ⟨m, rfl, ?_⟩
  by_cases e : m = .frequency
  · subst e
    have hv' := PDict.get?_of_mem hd hkv
    rw [hf] at hv'
    simp at hv'
    subst hv'
    have := validateParams_ok.1 hv _ (PDict.mem_of_get? (PDict.get?_put_self d f' .frequency))
    rcases validateParam_ok.1 this with h | h
    · rcases curateFreq_ok.1 hc with ⟨s, _, rfl⟩ | ⟨ss, _, rfl⟩ <;> cases h
    · exact Or.inr ((curated_passes hc).1 h)
  · have hm : (Key.known m, v) ∈ d.put (.known .frequency) f' :=
      PDict.mem_put_of_ne hkv (by simp [e])
    have := validateParam_ok.1 (validateParams_ok.1 hv _ hm)
    rcases this with h | h
    · exact Or.inl h
    · right
      unfold Passes at h
      cases m <;> simp_all

/-- A dictionary with an unknown name gives no object. -/
theorem C33_unknown_name (d : PDict) (hd : DistinctKeys d) (s : Str) (v : PVal)
    (hs : (Key.unknown s, v) ∈ d) : ∃ e, Params.new (.dict d) = .error e := by
  cases h : Params.new (.dict d) with
  | error e => exact ⟨e, rfl⟩
  | ok p =>
    obtain ⟨n, hn, _⟩ := C33_only_valid d p hd h _ _ hs
    cases hn

/-- A value that is not allowed is reported as an invalid parameter, provided nothing critical is
missing, the names are known and the frequency is given as text or texts. -/
theorem C33_invalid_value (d : PDict) (hd : DistinctKeys d)
    (hc : ∀ n ∈ [Name.timeHeaderCoord, .headersCoord, .dataStarts, .frequency], ¬ Missing d n)
    (hk : ∀ kv ∈ d, ∃ n, kv.1 = .known n)
    (hf : (∃ s, d.get? .frequency = some (.str s)) ∨
      ∃ ss : List Str, d.get? .frequency = some (.list (ss.map .str)))
    (n : Name) (v : PVal) (hv : d.get? n = some v) (h1 : v ≠ .none) (h2 : ¬ Allowed n v) :
    Params.new (.dict d) = .error .invalidParameter := by
  have hd0 : d ≠ [] := by rintro rfl; simp [PDict.get?] at hv
  obtain ⟨f, hf0, hf⟩ : ∃ f, d.get? .frequency = some f ∧ ((∃ s, f = .str s) ∨
      ∃ ss : List Str, f = .list (ss.map .str)) := by
    rcases hf with ⟨s, h⟩ | ⟨ss, h⟩
    · exact ⟨_, h, Or.inl ⟨s, rfl⟩⟩
    · exact ⟨_, h, Or.inr ⟨ss, rfl⟩⟩
  obtain ⟨f', hf'⟩ : ∃ f', curateFreq f = .ok f' := by
    rcases hf with ⟨s, rfl⟩ | ⟨ss, rfl⟩
    · exact ⟨_, curateFreq_ok.2 (Or.inl ⟨s, rfl, rfl⟩)⟩
    · exact ⟨_, curateFreq_ok.2 (Or.inr ⟨ss, rfl, rfl⟩)⟩
  have hcrit : checkHasCritical d critical = .ok () := by
    rw [(checkHasCritical_iff d critical critical_no_none).2]
    intro n hn
    rw [Bool.eq_false_iff]
    intro ha
    exact hc n hn ((absent_iff d n).1 ha)
  -- validation fails
  have hbad : validateParams (d.put (.known .frequency) f') ≠ .ok () := by
    intro hok
    by_cases e : n = .frequency
    · subst e
      rw [hf0] at hv
      simp at hv
      subst hv
      have := validateParams_ok.1 hok _ (PDict.mem_of_get? (PDict.get?_put_self d f' .frequency))
      rcases validateParam_ok.1 this with h | h
      · rcases curateFreq_ok.1 hf' with ⟨s, _, rfl⟩ | ⟨ss, _, rfl⟩ <;> cases h
      · exact h2 ((curated_passes hf').1 h)
    · have hm : (Key.known n, v) ∈ d.put (.known .frequency) f' :=
        PDict.mem_put_of_ne (PDict.mem_of_get? hv) (by simp [e])
      rcases validateParam_ok.1 (validateParams_ok.1 hok _ hm) with h | h
      · exact h1 h
      · apply h2
        unfold Passes at h
        cases n <;> simp_all
  have herr : validateParams (d.put (.known .frequency) f') = .error .invalidParameter := by
    cases hval : validateParams (d.put (.known .frequency) f') with
    | ok u => exact absurd hval hbad
    | error e =>
      rcases validateParams_error hval with h | ⟨_, s, w, hm⟩ | h
      · rw [h]
      · exfalso
        rcases PDict.mem_of_put hm with hm | ⟨hm, _⟩
        · obtain ⟨m, hm'⟩ := hk _ hm
          cases hm'
        · cases hm
      · exfalso
        subst h
        obtain ⟨w, hm, hw⟩ := validateParams_typeError hval
        have := PDict.get?_of_mem (PDict.distinct_put hd _ _) hm
        rw [PDict.get?_put_self] at this
        simp at this
        subst this
        exact curated_no_typeError hf' hw
  rw [new_dict_error hd0]
  unfold build buildCurated
  have hg : d.get .frequency = .ok f := PDict.get_ok.2 hf0
  rw [hcrit, hg]
  show ((curateFreq f >>= fun f' => do
    validateParams (d.put (.known .frequency) f')
    return missingsToDefault (d.put (.known .frequency) f')) >>= _) = _
  rw [hf']
  show ((validateParams (d.put (.known .frequency) f') >>= _) >>= _) = _
  rw [herr]
  rfl

example : Params.new (.dict (Sample.two.put (.known .alignment) (.str c!"diagonal"))) =
      .error .invalidParameter ∧
    Params.new (.dict (Sample.two.put (.known .continuity) (.list [.bool true, .str c!"yes"]))) =
      .error .invalidParameter ∧
    Params.new (.dict (Sample.two.put (.unknown c!"freq") (.str c!"M"))) = .error .keyError :=
  ⟨rfl, rfl, rfl⟩

example : ¬ Allowed .alignment (.str c!"diagonal") ∧ ¬ Allowed .dataStarts (.str c!"2") ∧
    Allowed .timeComposed (.list [.bool true, .bool false]) := by
  refine ⟨?_, ?_, ?_⟩
  · simp [Allowed, AllowedOne]
  · simp [Allowed, AllowedOne, IsInteger]
  · simp [Allowed, AllowedOne, TrueOrFalse, PVal.number]

/-! ### C32: frequencies -/

/-- One frequency text: every series gets the code it means. -/
theorem C32_text (d : PDict) (p : Params) (N : Nat) (s : Str) (hd : DistinctKeys d)
    (h : Params.new (.dict d) = .ok p) (hN : p.num = some N) (h1 : 1 ≤ N)
    (hs : d.get? .frequency = some (.str s)) :
    ∃ f, FreqMeans s f ∧ FreqCode f ∧ p .frequency = .list (List.replicate N (.str f)) := by
  have hd0 : d ≠ [] := by rintro rfl; simp [PDict.get?] at hs
  obtain ⟨d1, d2, d3, d4, ps, thc', multi, n, hb⟩ := ofDict_ok (new_dict_ok h hd0)
  obtain ⟨f, f', hf, hc, hv, h3⟩ := hb.get?_frequency
  obtain ⟨N', rfl, hN', _⟩ := hb.num_eq hd
  rw [hN] at hN'
  simp at hN'
  subst hN'
  rw [hs] at hf
  simp at hf
  subst hf
  rcases curateFreq_ok.1 hc with ⟨t, e, rfl⟩ | ⟨ss, e, _⟩
  · cases e
    refine ⟨_, freqTranslate_means s, ?_, ?_⟩
    · have := validateParams_ok.1 hv _ (PDict.mem_of_get? (PDict.get?_put_self d _ .frequency))
      rcases validateParam_ok.1 this with h | ⟨f, e, h⟩ | ⟨vs, e, _⟩
      · cases h
      · cases e; exact h
      · cases e
    · exact hb.value_of h3 (v' := .list (List.replicate N _))
        (congrArg Except.ok (applyGeneric_single h1 rfl rfl)) (Or.inl (by decide))
  · cases e

/-- A list of texts, one per series: series `i` gets the code its text means. -/
theorem C32_texts (d : PDict) (p : Params) (ss : List Str) (hd : DistinctKeys d)
    (h : Params.new (.dict d) = .ok p) (hN : p.num = some ss.length)
    (hs : d.get? .frequency = some (.list (ss.map .str))) :
    ∃ fs : List Str, List.Forall₂ (fun s f => FreqMeans s f ∧ FreqCode f) ss fs ∧
      p .frequency = .list (fs.map .str) := by
  have hd0 : d ≠ [] := by rintro rfl; simp [PDict.get?] at hs
  obtain ⟨d1, d2, d3, d4, ps, thc', multi, n, hb⟩ := ofDict_ok (new_dict_ok h hd0)
  obtain ⟨f, f', hf, hc, hv, h3⟩ := hb.get?_frequency
  obtain ⟨N', rfl, hN', _⟩ := hb.num_eq hd
  rw [hN] at hN'
  simp at hN'
  subst hN'
  rw [hs] at hf
  simp at hf
  subst hf
  rcases curateFreq_ok.1 hc with ⟨t, e, _⟩ | ⟨ss', e, rfl⟩
  · cases e
  · have hinj : ss = ss' := by
      simp only [PVal.list.injEq] at e
      exact List.map_injective_iff.2 (fun a b h => by cases h; rfl) e
    subst hinj
    refine ⟨ss.map fun s => freqTranslate (upper s), ?_, ?_⟩
    · have := validateParams_ok.1 hv _ (PDict.mem_of_get? (PDict.get?_put_self d _ .frequency))
      rcases validateParam_ok.1 this with h | ⟨f, e, _⟩ | ⟨vs, e, h⟩
      · cases h
      · cases e
      · simp only [PVal.list.injEq] at e
        subst e
        rw [List.forall₂_map_right_iff, List.forall₂_same]
        intro s hs
        refine ⟨freqTranslate_means s, ?_⟩
        obtain ⟨f, e, hf⟩ := h _ (List.mem_map_of_mem hs)
        cases e
        exact hf
    · have := hb.value_of h3 (v' := .list (ss.map fun s => .str (freqTranslate (upper s))))
        (congrArg Except.ok (applyGeneric_full (by simp))) (Or.inl (by decide))
      rw [this, List.map_map]
      rfl

/-- A text with a letter that no frequency has is reported as an invalid parameter. -/
theorem C32_other_letter (d : PDict) (s f : Str) (c : Char) (hd : DistinctKeys d)
    (hc : ∀ n ∈ [Name.timeHeaderCoord, .headersCoord, .dataStarts], ¬ Missing d n)
    (hk : ∀ kv ∈ d, ∃ n, kv.1 = .known n)
    (hs : d.get? .frequency = some (.str s)) (hf : FreqMeans s f) (h1 : c ∈ f)
    (h2 : c ∉ c!"ASQMWD") : Params.new (.dict d) = .error .invalidParameter := by
  refine C33_invalid_value d hd ?_ hk (Or.inl ⟨s, hs⟩) .frequency (.str s) hs (by simp) ?_
  · intro n hn
    simp only [List.mem_cons, List.not_mem_nil, or_false] at hn
    rcases hn with rfl | rfl | rfl | rfl
    · exact hc _ (by simp)
    · exact hc _ (by simp)
    · exact hc _ (by simp)
    · simp [Missing, hs]
  · rintro (⟨h, _⟩ | ⟨_, ⟨vs, h, _⟩ | ⟨_, s', f', h, hm, hcode⟩⟩)
    · cases h
    · cases h
    · cases h
      rw [freqMeans_eq hf, ← freqMeans_eq hm] at h1
      exact h2 (hcode c h1)

example : ∃ p, Params.new (.dict Sample.two) = .ok p ∧ p.num = some 2 ∧
    p .frequency = .list [.str c!"M", .str c!"M"] := ⟨_, rfl, rfl, rfl⟩

example : ∃ p, Params.new (.dict (Sample.two.put (.known .frequency)
      (.list [.str c!"qqqqY", .str c!"y"]))) = .ok p ∧
    p .frequency = .list [.str c!"QQQQA", .str c!"A"] := ⟨_, rfl, rfl⟩

example : Params.new (.dict (Sample.two.put (.known .frequency) (.str c!"B"))) =
    .error .invalidParameter := rfl

/-! ### C34: one value for all series, one entry per series -/

theorem plain_value {d : PDict} {p : Params} {N : Nat} {n : Name} {v v' : PVal}
    (hd : DistinctKeys d) (h : Params.new (.dict d) = .ok p) (hN : p.num = some N)
    (hv : d.get? n = some v) (hn : PlainName n v)
    (ha : applyGeneric v (some N) (validValues n) = v') (ht : v'.truthy = true) :
    p n = v' := by
  have hd0 : d ≠ [] := by rintro rfl; simp [PDict.get?] at hv
  obtain ⟨d1, d2, d3, d4, ps, thc', multi, m, hb⟩ := ofDict_ok (new_dict_ok h hd0)
  obtain ⟨N', rfl, hN', _⟩ := hb.num_eq hd
  rw [hN] at hN'
  simp at hN'
  subst hN'
  have h3 : d3.get? n = some v := by
    rcases hn with ⟨hn, hnone⟩ | ⟨hn, htr⟩
    · rw [← hv]
      apply hb.get?_untouched
      simp only [List.mem_cons, List.not_mem_nil, or_false] at hn
      rcases hn with rfl | rfl | rfl | rfl | rfl | rfl | rfl | rfl
      all_goals first
        | (left; decide)
        | (right; refine ⟨rfl, ?_⟩; unfold PDict.absent; rw [hv]; cases v <;> simp_all [PVal.isNone])
    · refine hb.get?_given hn hv ?_
      rcases htr with rfl | ⟨c, s, rfl⟩ | ⟨x, xs, rfl⟩ <;> rfl
  refine hb.value_of h3 ?_ (Or.inr ht)
  have hne : n ≠ .timeHeaderCoord ∧ n ≠ .missingValue := by
    rcases hn with ⟨hn, _⟩ | ⟨rfl | rfl, _⟩
    · constructor <;> rintro rfl <;> revert hn <;> decide
    · decide
    · decide
  rw [← ha]
  unfold applyToAll
  cases n <;> simp_all

/-- A parameter given as one value has it for every series. -/
theorem C34_one_value (d : PDict) (p : Params) (N : Nat) (n : Name) (v : PVal)
    (hd : DistinctKeys d) (h : Params.new (.dict d) = .ok p) (hN : p.num = some N) (h1 : 1 ≤ N)
    (hv : d.get? n = some v) (hn : PlainName n v) (hl : ¬ IsListValue v) :
    p n = .list (List.replicate N v) := by
  have hl' : v.isList = false := by
    cases v <;> first | rfl | exact absurd ⟨_, rfl⟩ hl
  have hnone : v.isNone = false := by
    rcases hn with ⟨_, hn⟩ | ⟨_, rfl | ⟨c, s, rfl⟩ | ⟨x, xs, rfl⟩⟩ <;> first | rfl | (cases v <;> simp_all [PVal.isNone])
  refine plain_value hd h hN hv hn (applyGeneric_single h1 hl' hnone) ?_
  obtain ⟨k, rfl⟩ : ∃ k, N = k + 1 := ⟨N - 1, by omega⟩
  rfl

/-- Likewise when it is given as a list of one entry. -/
theorem C34_one_entry (d : PDict) (p : Params) (N : Nat) (n : Name) (x : PVal)
    (hd : DistinctKeys d) (h : Params.new (.dict d) = .ok p) (hN : p.num = some N) (h1 : 1 ≤ N)
    (hv : d.get? n = some (.list [x])) (hn : PlainName n (.list [x])) :
    p n = .list (List.replicate N x) := by
  refine plain_value hd h hN hv hn (applyGeneric_one h1) ?_
  obtain ⟨k, rfl⟩ : ∃ k, N = k + 1 := ⟨N - 1, by omega⟩
  rfl

/-- A list with one entry per series keeps its entries. -/
theorem C34_entry_per_series (d : PDict) (p : Params) (n : Name) (vs : List PVal)
    (hd : DistinctKeys d) (h : Params.new (.dict d) = .ok p) (hN : p.num = some vs.length)
    (h1 : 1 ≤ vs.length) (hv : d.get? n = some (.list vs)) (hn : PlainName n (.list vs)) :
    p n = .list vs := by
  refine plain_value hd h hN hv hn (applyGeneric_full rfl) ?_
  cases vs with
  | nil => simp at h1
  | cons => rfl

/-- Series `i` of an object gets entry `i` of each list, and nothing else. -/
theorem C34_series (p : Params) (i : Nat) (s : List (Name × PVal)) (h : p.series i = .ok s)
    (n : Name) (v : PVal) :
    (n, v) ∈ s ↔ ∃ vs, p n = .list vs ∧ vs[i]? = some v := by
  rw [seriesDict_spec h n v]
  simp [Name.mem_all]

/-- Every series gets the missing value markers given: one marker, or a list of them. -/
theorem C34_missing_value (d : PDict) (p : Params) (N : Nat) (v : PVal) (hd : DistinctKeys d)
    (h : Params.new (.dict d) = .ok p) (hN : p.num = some N)
    (hv : d.get? .missingValue = some v) (hnone : v ≠ .none) :
    (¬ IsListValue v → p .missingValue = .list (List.replicate N (.list [v]))) ∧
    ((∃ xs, v = .list xs ∧ ¬ ∃ ys zs, xs = .list ys :: zs) →
      p .missingValue = .list (List.replicate N v)) := by
  have hd0 : d ≠ [] := by rintro rfl; simp [PDict.get?] at hv
  obtain ⟨d1, d2, d3, d4, ps, thc', multi, m, hb⟩ := ofDict_ok (new_dict_ok h hd0)
  obtain ⟨N', rfl, hN', _⟩ := hb.num_eq hd
  rw [hN] at hN'
  simp at hN'
  subst hN'
  have h3 : d3.get? .missingValue = some v := by
    rw [hb.guessed.others _ (by decide) (by decide),
      hb.headers.others _ (by decide) (by decide) (by decide) (by decide),
      hb.get?_d1 (by decide), hv]
    intro _
    unfold PDict.absent
    rw [hv]
    cases v <;> simp_all [PVal.isNone]
  constructor
  · intro hl
    refine hb.value_of h3 ?_ (Or.inl (by decide))
    unfold applyToAll applyMissingValue
    cases v with
    | list xs => exact absurd ⟨_, rfl⟩ hl
    | _ => rfl
  · rintro ⟨xs, rfl, hx⟩
    refine hb.value_of h3 ?_ (Or.inl (by decide))
    unfold applyToAll applyMissingValue
    cases xs with
    | nil => rfl
    | cons x xs =>
      cases x with
      | list ys => exact absurd ⟨_, _, rfl⟩ hx
      | _ => rfl

/-- Without missing value markers every series gets the default ones, and without a time
alignment every series gets 0. -/
theorem C34_defaults (d : PDict) (p : Params) (N : Nat) (hd : DistinctKeys d) (hd0 : d ≠ [])
    (h : Params.new (.dict d) = .ok p) (hN : p.num = some N) (h1 : 1 ≤ N) :
    (Missing d .missingValue →
      p .missingValue = .list (List.replicate N defaultMissingValue)) ∧
    (Missing d .timeAlignment → p .timeAlignment = .list (List.replicate N (.int 0))) := by
  obtain ⟨d1, d2, d3, d4, ps, thc', multi, m, hb⟩ := ofDict_ok (new_dict_ok h hd0)
  obtain ⟨N', rfl, hN', _⟩ := hb.num_eq hd
  rw [hN] at hN'
  simp at hN'
  subst hN'
  obtain ⟨f, f', _, _, _, hd1⟩ := hb.curated.curated
  have key : ∀ n, n ∈ useDefault → Missing d n → d3.get? n = defaultValue n := by
    intro n hn hm
    have e : (d.put (.known .frequency) f').absent n = true := by
      unfold PDict.absent
      rw [PDict.get?_put_other _ _ (by rintro rfl; revert hn; decide)]
      exact (absent_iff d n).2 hm
    have hne : n ≠ .timeMulticolumn ∧ n ≠ .alignment ∧ n ≠ .headersCoord ∧ n ≠ .timeHeaderCoord ∧
        n ≠ .composedHeadersCoord ∧ n ≠ .context := by
      simp only [useDefault, List.mem_cons, List.not_mem_nil, or_false] at hn
      rcases hn with rfl | rfl <;> decide
    rw [hb.guessed.others _ hne.1 hne.2.1, hb.headers.others _ hne.2.2.1 hne.2.2.2.1
      hne.2.2.2.2.1 hne.2.2.2.2.2, hd1, missingsToDefault_get?, e]
    simp [hn]
  constructor
  · intro hm
    exact hb.value_of (key .missingValue (by decide) hm) rfl (Or.inl (by decide))
  · intro hm
    exact hb.value_of (key .timeAlignment (by decide) hm)
      (congrArg Except.ok (applyGeneric_single h1 rfl rfl)) (Or.inl (by decide))

example : ∃ p, Params.new (.dict Sample.two) = .ok p ∧
    p .continuity = .list [.bool true, .bool true] ∧ p .dataEnds = .list [.int 9, .int 12] ∧
    p .timeAlignment = .list [.int 0, .int 0] := ⟨_, rfl, rfl, rfl, rfl⟩

example : PlainName .continuity (.bool true) ∧ PlainName .dataEnds (.list [.int 9, .int 12]) ∧
    PlainName .timeMulticolumn (.list [.bool false]) ∧ PlainName .alignment (.str c!"vertical") := by
  refine ⟨Or.inl ⟨by decide, by simp⟩, Or.inl ⟨by decide, by simp⟩, Or.inr ⟨by decide, .inr (.inr ⟨_, _, rfl⟩)⟩,
    Or.inr ⟨by decide, .inr (.inl ⟨_, _, rfl⟩)⟩⟩

/-! ### C35: the number of series -/

/-- One header and a time header of two cells make two series. -/
theorem C35_number_of_series_violated :
    ∃ p, Params.new (.dict Sample.oneHeader) = .ok p ∧
      unpackRanges (.str c!"C1") = .ok (.list [.str c!"C1"]) ∧
      Sample.oneHeader.get? .headersCoord = some (.str c!"C1") ∧ p.num = some 2 :=
  ⟨_, rfl, rfl, rfl, rfl⟩

theorem separateAll_length {vs : List PVal} {ps : List (List Str × PVal)}
    (h : separateAll vs = .ok ps) : ps.length = vs.length := by
  induction vs generalizing ps with
  | nil => cases h; rfl
  | cons v vs ih =>
    rw [separateAll] at h
    obtain ⟨q, _, h⟩ := bind_ok h
    obtain ⟨qs, h2, h⟩ := bind_ok h
    have := pure_ok h
    subst this
    simp [ih h2]

theorem contextsOf_length {o : List (Str × List PVal)} {hs : List PVal} {cs : List (List Str)}
    (h : contextsOf o hs = .ok cs) : cs.length = hs.length := by
  induction hs generalizing cs with
  | nil => cases h; rfl
  | cons v vs ih =>
    rw [contextsOf] at h
    obtain ⟨q, _, h⟩ := bind_ok h
    obtain ⟨qs, h2, h⟩ := bind_ok h
    have := pure_ok h
    subst this
    simp [ih h2]

theorem processContext_ok {c : PVal} {hs : List PVal} {c' : PVal}
    (h : processContext c (.list hs) = .ok c') :
    ∃ kvs us cs, c = .dict kvs ∧ unpackContext kvs = .ok us ∧
      contextsOf (sortByLen us) hs = .ok cs ∧ c' = .list (cs.map fun ns => .list (ns.map .str)) := by
  unfold processContext at h
  split at h
  · next kvs =>
    obtain ⟨us, h1, h⟩ := bind_ok h
    obtain ⟨cs, h2, h⟩ := bind_ok h
    exact ⟨kvs, us, cs, rfl, h1, h2, (pure_ok h).symm⟩
  · cases h

theorem processHeaders_ok {v : PVal} {ps : List (List Str × PVal)} (h : processHeaders v = .ok ps) :
    ∃ us, unpackRanges v = .ok (.list us) ∧ separateAll us = .ok ps := by
  unfold processHeaders at h
  obtain ⟨u, h1, h⟩ := bind_ok h
  split at h
  · next us => exact ⟨us, h1, h⟩
  · cases h

/-- How many series there are, exactly: as many as the longest of the lists has entries. (Of the full claim this
leaves what is false of the code, that these are the headers: see `C35_number_of_series_violated`.) The lists of a
`composed_headers_coord` that is given are replaced or not, so it is left aside here. -/
theorem C35_longest_list_partial (d : PDict) (p : Params) (hd : DistinctKeys d) (h : Params.new (.dict d) = .ok p)
    (hd0 : d ≠ []) (hcomp : ∀ vs, d.get? .composedHeadersCoord ≠ some (.list vs)) :
    ∃ N, p.num = some N ∧ ListLength d N ∧ ∀ len, ListLength d len → len ≤ N := by
  obtain ⟨d1, d2, d3, d4, ps, thc', multi, m, hb⟩ := ofDict_ok (new_dict_ok h hd0)
  obtain ⟨N, rfl, hN, hle⟩ := hb.num_eq hd
  refine ⟨N, hN, ?_⟩
  have hd2 : d2.Distinct := hb.headers.distinct (hb.curated.distinct hd)
  obtain ⟨hc, us, hh, hu, hps⟩ : ∃ hc us, d.get? .headersCoord = some hc ∧ unpackRanges hc = .ok (.list us) ∧
      ps.length = us.length := by
    obtain ⟨hc', h1, h2⟩ := hb.headers.headers
    rw [hb.get?_d1 (by decide) (by simp [useDefault])] at h1
    obtain ⟨us', h3, h4⟩ := processHeaders_ok h2
    exact ⟨hc', us', h1, h3, separateAll_length h4⟩
  obtain ⟨thc, ht, htu⟩ : ∃ thc, d.get? .timeHeaderCoord = some thc ∧ unpackRanges thc = .ok thc' := by
    obtain ⟨t, h1, h2⟩ := hb.headers.time
    rw [hb.get?_d1 (by decide) (by simp [useDefault])] at h1
    exact ⟨t, h1, h2⟩
  have hus : ListLength d us.length := ⟨_, _, us, hh, rfl, by simpa using hu⟩
  obtain ⟨⟨k, vs, hmem, hk, hlen⟩, hmax⟩ := numSeries_eq_some.1 hb.num.symm
  constructor
  · obtain ⟨n, rfl⟩ : ∃ m, k = .known m := by
      have h3 := hb.guessed.keys k (List.mem_map_of_mem (f := (·.1)) hmem)
      simp only [List.mem_map] at h3
      obtain ⟨kv, hkv, rfl⟩ := h3
      exact applyEach_known hb.applied kv hkv
    have hg := PDict.get?_of_mem hd2 hmem
    rw [← hlen]
    by_cases e1 : n = .headersCoord
    · subst e1
      rw [hb.headers.headersCoord] at hg
      simp only [headersOf, Option.some.injEq, PVal.list.injEq] at hg
      rw [← hg, List.length_map, hps]
      exact hus
    by_cases e2 : n = .timeHeaderCoord
    · subst e2
      rw [hb.headers.timeHeader] at hg
      simp only [Option.some.injEq] at hg
      subst hg
      exact ⟨_, _, vs, ht, rfl, by simpa using htu⟩
    have e3 : n ≠ .missingValue := fun e => hk (by rw [e])
    have plain : d.get? n = some (.list vs) → ListLength d vs.length :=
      fun hv => ⟨n, _, vs, hv, rfl, by rw [if_neg (by simp [e1, e2])]; exact ⟨e3, rfl⟩⟩
    by_cases e4 : n = .frequency
    · subst e4
      obtain ⟨f, f', hf, hcf, _, h3⟩ := hb.get?_frequency
      rw [hb.guessed.others _ (by decide) (by decide), hg] at h3
      simp at h3
      subst h3
      rcases curateFreq_ok.1 hcf with ⟨s, _, e⟩ | ⟨ss, rfl, e⟩
      · cases e
      · simp only [PVal.list.injEq] at e
        subst e
        exact ⟨.frequency, _, ss.map .str, hf, by simp, by simp⟩
    by_cases e5 : n = .composedHeadersCoord
    · subst e5
      rw [hb.headers.composed] at hg
      split at hg
      · simp only [composedOf, Option.some.injEq, PVal.list.injEq] at hg
        rw [← hg, List.length_map, hps]
        exact hus
      · rw [hb.get?_d1 (by decide) (by simp [useDefault])] at hg
        exact plain hg
    by_cases e6 : n = .context
    · subst e6
      rcases hb.headers.context with ⟨hf, e⟩ | ⟨c, c', _, _, h1, e⟩
      · rw [e, hb.get?_d1 (by decide) (by simp [useDefault])] at hg
        exact plain hg
      · rw [e] at hg
        simp at hg
        subst hg
        obtain ⟨kvs, us', cs, _, _, h2, e⟩ := processContext_ok h1
        simp only [PVal.list.injEq] at e
        subst e
        simp only [List.length_map, contextsOf_length h2, hps]
        exact hus
    by_cases e7 : n ∈ useDefault ∧ d.absent n = true
    · obtain ⟨h1, h2⟩ := e7
      obtain ⟨f, f', _, _, _, hd1⟩ := hb.curated.curated
      rw [hb.headers.others _ e1 e2 e5 e6, hd1, missingsToDefault_get?] at hg
      have : (d.put (.known .frequency) f').absent n = true := by
        unfold PDict.absent
        rw [PDict.get?_put_other _ _ (Ne.symm e4)]
        exact h2
      rw [this] at hg
      simp only [useDefault, List.mem_cons, List.not_mem_nil, or_false] at h1
      rcases h1 with rfl | rfl
      · simp [useDefault, defaultValue] at hg
      · exact absurd rfl e3
    · rw [hb.headers.others _ e1 e2 e5 e6, hb.get?_d1 e4] at hg
      · exact plain hg
      · intro hn
        by_cases ha : d.absent n = true
        · exact absurd ⟨hn, ha⟩ e7
        · simpa using ha
  · rintro len ⟨n, v, vs, hv, rfl, hcond⟩
    by_cases e1 : n = .headersCoord
    · subst e1
      rw [hh] at hv
      cases hv
      simp only [true_or, if_true] at hcond
      rw [hu] at hcond
      cases hcond
      omega
    by_cases e2 : n = .timeHeaderCoord
    · subst e2
      rw [ht] at hv
      cases hv
      simp only [or_true, if_true] at hcond
      rw [htu] at hcond
      cases hcond
      exact hmax _ _ (PDict.mem_of_get? hb.headers.timeHeader) (by simp)
    rw [if_neg (by simp [e1, e2])] at hcond
    obtain ⟨e3, rfl⟩ := hcond
    by_cases e4 : n = .frequency
    · subst e4
      obtain ⟨f, f', hf, hcf, _, h3⟩ := hb.get?_frequency
      rw [hv] at hf
      cases hf
      rcases curateFreq_ok.1 hcf with ⟨s, e, _⟩ | ⟨ss, e, rfl⟩
      · cases e
      · rw [hb.guessed.others _ (by decide) (by decide)] at h3
        have := hmax _ _ (PDict.mem_of_get? h3) (by simp)
        simp only [PVal.list.injEq] at e
        subst e
        simpa using this
    by_cases e5 : n = .composedHeadersCoord
    · subst e5
      exact absurd hv (hcomp vs)
    have hu1 : ∀ n, n ≠ .frequency → d.get? n = some (.list vs) → d1.get? n = some (.list vs) := by
      intro n hn hg
      rw [hb.get?_d1 hn]
      · exact hg
      · intro _
        simp [PDict.absent, hg, PVal.isNone]
    by_cases e6 : n = .context
    · subst e6
      rcases hb.headers.context with ⟨hf, e⟩ | ⟨c, c', h0, _, h1, e⟩
      · exact hmax _ _ (PDict.mem_of_get? (e.trans (hu1 _ (by decide) hv))) (by simp)
      · rw [hu1 _ (by decide) hv] at h0
        cases h0
        obtain ⟨kvs, _, _, e, _⟩ := processContext_ok h1
        cases e
    · have h2 := hu1 n e4 hv
      rw [← hb.headers.others _ e1 e2 e5 e6] at h2
      exact hmax _ _ (PDict.mem_of_get? h2) (by simpa using e3)

/-- There are at least as many series as headers, and exactly as many when no other list given is
longer. (Missing for the full claim: it fails when another list is longer, see above.) -/
theorem C35_number_of_series_partial (d : PDict) (p : Params) (hc thc : PVal) (us ts : List PVal)
    (hd : DistinctKeys d) (h : Params.new (.dict d) = .ok p)
    (hh : d.get? .headersCoord = some hc) (hu : unpackRanges hc = .ok (.list us)) :
    (∃ N, p.num = some N ∧ us.length ≤ N) ∧
    (d.get? .timeHeaderCoord = some thc → unpackRanges thc = .ok (.list ts) →
      ts.length ≤ us.length →
      (∀ n vs, d.get? n = some (.list vs) → n ≠ .headersCoord → n ≠ .timeHeaderCoord →
        n ≠ .missingValue → vs.length ≤ us.length) →
      p.num = some us.length) := by
  have hd0 : d ≠ [] := by rintro rfl; simp [PDict.get?] at hh
  obtain ⟨d1, d2, d3, d4, ps, thc', multi, m, hb⟩ := ofDict_ok (new_dict_ok h hd0)
  have hps : ps.length = us.length := by
    obtain ⟨hc', h1, h2⟩ := hb.headers.headers
    rw [hb.get?_d1 (by decide) (by simp [useDefault]), hh] at h1
    simp at h1
    subst h1
    obtain ⟨us', h3, h4⟩ := processHeaders_ok h2
    rw [hu] at h3
    cases h3
    exact separateAll_length h4
  obtain ⟨N, rfl, hN, hle⟩ := hb.num_eq hd
  refine ⟨⟨N, hN, by omega⟩, ?_⟩
  intro ht hut hts hoth
  rw [hN]
  congr 1
  have hd2 : d2.Distinct := hb.headers.distinct (hb.curated.distinct hd)
  obtain ⟨⟨k, vs, hmem, hk, hlen⟩, _⟩ := numSeries_eq_some.1 hb.num.symm
  obtain ⟨n, rfl⟩ : ∃ m, k = .known m := by
    have h3 := hb.guessed.keys k (List.mem_map_of_mem (f := (·.1)) hmem)
    simp only [List.mem_map] at h3
    obtain ⟨kv, hkv, rfl⟩ := h3
    exact applyEach_known hb.applied kv hkv
  have hg := PDict.get?_of_mem hd2 hmem
  suffices vs.length ≤ us.length by omega
  by_cases e1 : n = .headersCoord
  · subst e1
    rw [hb.headers.headersCoord] at hg
    simp [headersOf] at hg
    rw [← hg, List.length_map, hps]; exact Nat.le_refl _
  · by_cases e2 : n = .timeHeaderCoord
    · subst e2
      obtain ⟨t, h1, h2⟩ := hb.headers.time
      rw [hb.get?_d1 (by decide) (by simp [useDefault]), ht] at h1
      simp at h1
      subst h1
      rw [hut] at h2
      cases h2
      rw [hb.headers.timeHeader] at hg
      simp at hg
      rw [← hg]
      exact hts
    · have e3 : n ≠ .missingValue := fun e => hk (by rw [e])
      by_cases e4 : n = .frequency
      · subst e4
        obtain ⟨f, f', hf, hcf, _, h3⟩ := hb.get?_frequency
        rw [hb.guessed.others _ (by decide) (by decide), hg] at h3
        simp at h3
        subst h3
        rcases curateFreq_ok.1 hcf with ⟨s, _, e⟩ | ⟨ss, rfl, e⟩
        · cases e
        · simp only [PVal.list.injEq] at e
          subst e
          have := hoth _ _ hf (by decide) (by decide) (by decide)
          simpa using this
      · by_cases e5 : n = .composedHeadersCoord
        · subst e5
          rw [hb.headers.composed] at hg
          split at hg
          · simp [composedOf] at hg
            rw [← hg, List.length_map, hps]; exact Nat.le_refl _
          · rw [hb.get?_d1 (by decide) (by simp [useDefault])] at hg
            exact hoth _ _ hg (by decide) (by decide) (by decide)
        · by_cases e6 : n = .context
          · subst e6
            rcases hb.headers.context with ⟨hf, e⟩ | ⟨c, c', _, _, h1, e⟩
            · rw [e, hb.get?_d1 (by decide) (by simp [useDefault])] at hg
              exact hoth _ _ hg (by decide) (by decide) (by decide)
            · rw [e] at hg
              simp at hg
              subst hg
              obtain ⟨kvs, us', cs, _, _, h2, e⟩ := processContext_ok h1
              simp only [PVal.list.injEq] at e
              subst e
              simp [contextsOf_length h2, hps]
          · by_cases e7 : n ∈ useDefault ∧ d.absent n = true
            · obtain ⟨h1, h2⟩ := e7
              obtain ⟨f, f', _, _, _, hd1⟩ := hb.curated.curated
              rw [hb.headers.others _ e1 e2 e5 e6, hd1, missingsToDefault_get?] at hg
              have : (d.put (.known .frequency) f').absent n = true := by
                unfold PDict.absent
                rw [PDict.get?_put_other _ _ (Ne.symm e4)]
                exact h2
              rw [this] at hg
              simp only [useDefault, List.mem_cons, List.not_mem_nil, or_false] at h1
              rcases h1 with rfl | rfl
              · simp [useDefault, defaultValue] at hg
              · exact absurd rfl e3
            · rw [hb.headers.others _ e1 e2 e5 e6, hb.get?_d1 e4] at hg
              · exact hoth _ _ hg e1 e2 e3
              · intro hn
                by_cases ha : d.absent n = true
                · exact absurd ⟨hn, ha⟩ e7
                · simpa using ha

example : ∃ p, Params.new (.dict Sample.withContext) = .ok p ∧ p.num = some 3 := ⟨_, rfl, rfl⟩

example : ∃ N p, Params.new (.dict Sample.oneHeader) = .ok p ∧ p.num = some N ∧ ListLength Sample.oneHeader N := by
  obtain ⟨N, h1, h2, _⟩ := C35_longest_list_partial Sample.oneHeader _ (by unfold DistinctKeys; decide) rfl (by decide)
    (fun _ h => nomatch h)
  exact ⟨N, _, rfl, h1, h2⟩

end Xls
