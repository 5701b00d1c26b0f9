/-
The number of series, and the value each series gets.
-/
import Verif.Lemmas.Build

set_option autoImplicit false

namespace Xls

/-! ### The longest list -/

theorem numSeriesFrom_spec (d : PDict) (acc : Option Nat) :
    (numSeriesFrom acc d = none ↔
      acc = none ∧ ∀ k vs, (k, PVal.list vs) ∈ d → k = .known .missingValue) ∧
    (∀ m, numSeriesFrom acc d = some m ↔
      ((acc = some m ∨ ∃ k vs, (k, PVal.list vs) ∈ d ∧ k ≠ .known .missingValue ∧ vs.length = m) ∧
        (∀ a, acc = some a → a ≤ m) ∧
        ∀ k vs, (k, PVal.list vs) ∈ d → k ≠ .known .missingValue → vs.length ≤ m)) := by
  induction d generalizing acc with
  | nil =>
    simp only [numSeriesFrom]
    constructor
    · simp
    · intro m
      constructor
      · intro h; subst h; simp
      · rintro ⟨h | ⟨k, vs, h, _⟩, _, _⟩
        · exact h
        · simp at h
  | cons kv d ih =>
    obtain ⟨k, v⟩ := kv
    -- an entry that is no list, or is `missing_value`, does not count
    have skip : (∀ vs, v = .list vs → k = .known .missingValue) →
        numSeriesFrom acc ((k, v) :: d) = numSeriesFrom acc d →
        _ := fun hno heq => by
      have mem : ∀ k' vs, (k', PVal.list vs) ∈ (k, v) :: d → k' ≠ .known .missingValue →
          (k', PVal.list vs) ∈ d := by
        intro k' vs h hk
        simp only [List.mem_cons, Prod.mk.injEq] at h
        rcases h with ⟨rfl, h⟩ | h
        · exact absurd (hno vs h.symm) hk
        · exact h
      exact show (numSeriesFrom acc ((k, v) :: d) = none ↔
          acc = none ∧ ∀ k' vs, (k', PVal.list vs) ∈ (k, v) :: d → k' = .known .missingValue) ∧
        (∀ m, numSeriesFrom acc ((k, v) :: d) = some m ↔
          ((acc = some m ∨ ∃ k' vs, (k', PVal.list vs) ∈ (k, v) :: d ∧
              k' ≠ .known .missingValue ∧ vs.length = m) ∧
            (∀ a, acc = some a → a ≤ m) ∧
            ∀ k' vs, (k', PVal.list vs) ∈ (k, v) :: d → k' ≠ .known .missingValue →
              vs.length ≤ m)) by
        rw [heq]
        obtain ⟨i1, i2⟩ := ih acc
        constructor
        · rw [i1]
          refine and_congr_right fun _ => ⟨fun h k' vs hm => ?_, fun h k' vs hm => ?_⟩
          · by_contra hk
            exact hk (h k' vs (mem k' vs hm hk))
          · exact h k' vs (List.mem_cons_of_mem _ hm)
        · intro m
          rw [i2]
          refine and_congr ?_ (and_congr_right fun _ => ?_)
          · refine or_congr_right ⟨?_, ?_⟩
            · rintro ⟨k', vs, h1, h2⟩; exact ⟨k', vs, List.mem_cons_of_mem _ h1, h2⟩
            · rintro ⟨k', vs, h1, h2, h3⟩; exact ⟨k', vs, mem k' vs h1 h2, h2, h3⟩
          · exact ⟨fun h k' vs hm hk => h k' vs (mem k' vs hm hk) hk,
              fun h k' vs hm hk => h k' vs (List.mem_cons_of_mem _ hm) hk⟩
    cases v with
    | list vs =>
      by_cases hk : k = .known .missingValue
      · exact skip (fun _ _ => hk) (by simp [numSeriesFrom, hk])
      · -- a list that counts
        obtain ⟨a', ha', hacc⟩ : ∃ a', numSeriesFrom acc ((k, .list vs) :: d) =
            numSeriesFrom (some a') d ∧
            ((acc = none ∧ a' = vs.length) ∨ ∃ a, acc = some a ∧ a' = max a vs.length) := by
          cases acc with
          | none => exact ⟨vs.length, by simp [numSeriesFrom, hk], Or.inl ⟨rfl, rfl⟩⟩
          | some a =>
            refine ⟨max a vs.length, ?_, Or.inr ⟨a, rfl, rfl⟩⟩
            simp only [numSeriesFrom, hk, if_false]
            congr 2
            split <;> omega
        rw [ha']
        obtain ⟨i1, i2⟩ := ih (some a')
        constructor
        · rw [i1]
          constructor
          · rintro ⟨h, _⟩; cases h
          · rintro ⟨_, h⟩
            exact absurd (h k vs (by simp)) hk
        · intro m
          rw [i2]
          constructor
          · rintro ⟨h1, h2, h3⟩
            have h2 := h2 a' rfl
            have hvs : vs.length ≤ m := by
              rcases hacc with ⟨_, e⟩ | ⟨a, _, e⟩ <;> omega
            refine ⟨?_, ?_, ?_⟩
            · rcases h1 with h1 | ⟨k', ws, h1, h4⟩
              · simp at h1
                rcases hacc with ⟨_, e⟩ | ⟨a, ea, e⟩
                · exact Or.inr ⟨k, vs, by simp, hk, by omega⟩
                · by_cases hle : a ≤ vs.length
                  · exact Or.inr ⟨k, vs, by simp, hk, by omega⟩
                  · exact Or.inl (by rw [ea]; congr 1; omega)
              · exact Or.inr ⟨k', ws, List.mem_cons_of_mem _ h1, h4⟩
            · intro a ea
              rcases hacc with ⟨e, _⟩ | ⟨a0, ea0, e⟩
              · rw [e] at ea; cases ea
              · rw [ea0] at ea; simp at ea; omega
            · intro k' ws hm hk'
              simp only [List.mem_cons, Prod.mk.injEq] at hm
              rcases hm with ⟨_, hm⟩ | hm
              · simp at hm; subst hm; exact hvs
              · exact h3 k' ws hm hk'
          · rintro ⟨h1, h2, h3⟩
            have hvs := h3 k vs (by simp) hk
            refine ⟨?_, ?_, fun k' ws hm hk' => h3 k' ws (List.mem_cons_of_mem _ hm) hk'⟩
            · rcases h1 with h1 | ⟨k', ws, hm, hk', hl⟩
              · rcases hacc with ⟨e, _⟩ | ⟨a, ea, e⟩
                · rw [e] at h1; cases h1
                · rw [ea] at h1; simp at h1
                  exact Or.inl (by congr 1; omega)
              · simp only [List.mem_cons, Prod.mk.injEq] at hm
                rcases hm with ⟨rfl, hm⟩ | hm
                · simp at hm; subst hm
                  refine Or.inl ?_
                  congr 1
                  rcases hacc with ⟨_, e⟩ | ⟨a, ea, e⟩
                  · omega
                  · have := h2 a ea; omega
                · exact Or.inr ⟨k', ws, hm, hk', hl⟩
            · intro a ea
              simp at ea; subst ea
              rcases hacc with ⟨_, e⟩ | ⟨a, ea, e⟩
              · omega
              · have := h2 a ea; omega
    | none => exact skip (fun _ h => by cases h) (by simp [numSeriesFrom])
    | bool b => exact skip (fun _ h => by cases h) (by simp [numSeriesFrom])
    | int b => exact skip (fun _ h => by cases h) (by simp [numSeriesFrom])
    | float b => exact skip (fun _ h => by cases h) (by simp [numSeriesFrom])
    | str b => exact skip (fun _ h => by cases h) (by simp [numSeriesFrom])
    | dict b => exact skip (fun _ h => by cases h) (by simp [numSeriesFrom])

theorem numSeries_eq_some {d : PDict} {m : Nat} :
    numSeries d = some m ↔
      (∃ k vs, (k, PVal.list vs) ∈ d ∧ k ≠ .known .missingValue ∧ vs.length = m) ∧
      ∀ k vs, (k, PVal.list vs) ∈ d → k ≠ .known .missingValue → vs.length ≤ m := by
  unfold numSeries
  rw [(numSeriesFrom_spec d none).2 m]
  simp

theorem Params.num_eq_some {p : Params} {m : Nat} :
    p.num = some m ↔
      (∃ n vs, p n = .list vs ∧ n ≠ .missingValue ∧ vs.length = m) ∧
      ∀ n vs, p n = .list vs → n ≠ .missingValue → vs.length ≤ m := by
  have mem : ∀ k v, (k, v) ∈ p.toDict ↔ ∃ n, k = .known n ∧ p n = v := by
    intro k v
    unfold Params.toDict
    simp only [List.mem_map, Prod.mk.injEq]
    constructor
    · rintro ⟨n, _, rfl, rfl⟩; exact ⟨n, rfl, rfl⟩
    · rintro ⟨n, rfl, rfl⟩
      exact ⟨n, by cases n <;> decide, rfl, rfl⟩
  unfold Params.num
  rw [numSeries_eq_some]
  refine and_congr ⟨?_, ?_⟩ ⟨?_, ?_⟩
  · rintro ⟨k, vs, h1, h2, h3⟩
    obtain ⟨n, rfl, h⟩ := (mem _ _).1 h1
    exact ⟨n, vs, h, fun e => h2 (by rw [e]), h3⟩
  · rintro ⟨n, vs, h1, h2, h3⟩
    exact ⟨.known n, vs, (mem _ _).2 ⟨n, rfl, h1⟩, fun e => h2 (by cases e; rfl), h3⟩
  · intro h n vs h1 h2
    exact h (.known n) vs ((mem _ _).2 ⟨n, rfl, h1⟩) (fun e => h2 (by cases e; rfl))
  · intro h k vs h1 h2
    obtain ⟨n, rfl, h3⟩ := (mem _ _).1 h1
    exact h n vs h3 (fun e => h2 (by rw [e]))

/-! ### Repeating values -/

theorem applyGeneric_single {v : PVal} {N : Nat} {vs : List Valid} (hN : 1 ≤ N)
    (hl : v.isList = false) (hv : v.isNone = false) :
    applyGeneric v (some N) vs = .list (List.replicate N v) := by
  obtain ⟨k, rfl⟩ : ∃ k, N = k + 1 := ⟨N - 1, by omega⟩
  unfold applyGeneric
  rw [hv]
  simp only [Bool.false_and, Bool.false_eq_true, if_false]
  cases v <;> simp_all [PVal.isList]

theorem applyGeneric_none {N : Nat} {vs : List Valid} (hN : 1 ≤ N) (hv : hasNone vs = true) :
    applyGeneric .none (some N) vs = .list (List.replicate N .none) := by
  obtain ⟨k, rfl⟩ : ∃ k, N = k + 1 := ⟨N - 1, by omega⟩
  unfold applyGeneric
  simp [hv]

theorem applyGeneric_one {x : PVal} {N : Nat} {vs : List Valid} (hN : 1 ≤ N) :
    applyGeneric (.list [x]) (some N) vs = .list (List.replicate N x) := by
  obtain ⟨k, rfl⟩ : ∃ k, N = k + 1 := ⟨N - 1, by omega⟩
  simp [applyGeneric, PVal.isNone]

theorem applyGeneric_list {xs : List PVal} {N : Nat} {vs : List Valid} (h : xs.length ≠ 1 ∨ N ≤ 1) :
    applyGeneric (.list xs) (some N) vs = .list xs := by
  unfold applyGeneric
  cases N with
  | zero => simp [PVal.isNone]
  | succ k =>
    cases xs with
    | nil => simp [PVal.isNone]
    | cons x xs =>
      cases xs with
      | nil =>
        have : k = 0 := by
          rcases h with h | h
          · simp at h
          · omega
        subst this
        simp [PVal.isNone]
      | cons y ys => simp [PVal.isNone]

theorem applyGeneric_full {xs : List PVal} {N : Nat} {vs : List Valid} (h : xs.length = N) :
    applyGeneric (.list xs) (some N) vs = .list xs :=
  applyGeneric_list (by omega)

/-- Lists never become longer than the number of series, and complete ones stay complete. -/
theorem applyGeneric_length {xs : List PVal} {N : Nat} {vs : List Valid} (h : xs.length ≤ N) :
    ∃ ws, applyGeneric (.list xs) (some N) vs = .list ws ∧ ws.length ≤ N ∧
      (xs.length = N → ws.length = N) := by
  by_cases h1 : xs.length ≠ 1 ∨ N ≤ 1
  · exact ⟨xs, applyGeneric_list h1, h, fun e => e⟩
  · have h2 : xs.length = 1 := by omega
    obtain ⟨x, rfl⟩ := List.length_eq_one_iff.1 h2
    exact ⟨_, applyGeneric_one (by omega), by simp, by simp⟩

theorem applyGeneric_nonlist {v : PVal} {N : Nat} {vs : List Valid} {ws : List PVal}
    (hl : v.isList = false) (h : applyGeneric v (some N) vs = .list ws) : ws.length = N := by
  unfold applyGeneric at h
  split at h
  · cases h
  · cases N with
    | zero =>
      simp only at h
      subst h
      simp [PVal.isList] at hl
    | succ k =>
      cases v <;> simp [PVal.isList] at hl h <;> (subst h; simp)

theorem applyToAll_length {name : Name} {xs : List PVal} {N : Nat} {multi v' : PVal}
    (hn : name ≠ .missingValue) (h : xs.length ≤ N)
    (ha : applyToAll name (.list xs) (some N) multi = .ok v') :
    ∃ ws, v' = .list ws ∧ ws.length ≤ N ∧ (xs.length = N → ws.length = N) := by
  have gen : ∀ vs, .ok (applyGeneric (.list xs) (some N) vs) = Except.ok (ε := Err) v' →
      ∃ ws, v' = .list ws ∧ ws.length ≤ N ∧ (xs.length = N → ws.length = N) := by
    intro vs e
    cases e
    exact applyGeneric_length h
  cases name with
  | missingValue => exact absurd rfl hn
  | timeHeaderCoord =>
    simp only [applyToAll] at ha
    unfold applyTimeHeader at ha
    split at ha
    · cases ha
    · next x rest heq =>
      cases heq
      split at ha
      · cases ha
        exact ⟨_, rfl, h, fun e => e⟩
      · cases ha
    · next vs hne1 hne2 heq =>
      cases heq
      split at ha
      · cases ha
      · split at ha
        · simp only [repeatFor] at ha
          cases ha
          exact ⟨_, rfl, by simp, by simp⟩
        · exact gen _ ha
    · next hne => exact absurd rfl (hne xs)
  | _ => exact gen _ ha

theorem applyToAll_nonlist {name : Name} {v : PVal} {N : Nat} {multi v' : PVal} {ws : List PVal}
    (hn : name ≠ .missingValue) (hl : v.isList = false)
    (ha : applyToAll name v (some N) multi = .ok v') (hv : v' = .list ws) : ws.length = N := by
  have gen : ∀ vs, .ok (applyGeneric v (some N) vs) = Except.ok (ε := Err) v' → ws.length = N := by
    intro vs e
    cases e
    exact applyGeneric_nonlist hl hv
  cases name with
  | missingValue => exact absurd rfl hn
  | timeHeaderCoord =>
    simp only [applyToAll] at ha
    unfold applyTimeHeader at ha
    split at ha
    · cases ha
    · simp [PVal.isList] at hl
    · simp [PVal.isList] at hl
    · split at ha
      · cases ha
      · exact gen _ ha
  | _ => exact gen _ ha

/-! ### The number of series of a built object -/

theorem guessAlignment_cases {hs : List PVal} {a : PVal} (h : guessAlignment hs = .ok a) :
    a = .none ∨ a = .str c!"vertical" ∨ a = .str c!"horizontal" := by
  unfold guessAlignment at h
  split at h
  · cases h; exact Or.inl rfl
  · split at h
    · cases h
    · cases h; exact Or.inl rfl
    · split at h
      · cases h
      · next cs _ =>
        cases h
        unfold alignmentOf
        split
        · exact Or.inr (Or.inl rfl)
        · split
          · exact Or.inr (Or.inr rfl)
          · exact Or.inl rfl

theorem guessAlignment_not_list (hs vs : List PVal) : guessAlignment hs ≠ .ok (.list vs) := by
  intro h
  rcases guessAlignment_cases h with h | h | h <;> cases h

theorem Curated.distinct {d d1 : PDict} (h : Curated d d1) (hd : d.Distinct) : d1.Distinct := by
  obtain ⟨f, f', _, _, _, rfl⟩ := h.curated
  exact missingsToDefault_distinct (PDict.distinct_put hd _ _)

/-- The number of series used while building is that of the object that results. -/
theorem Built.num_eq {d : PDict} {p : Params} {d1 d2 d3 d4 : PDict} {ps : List (List Str × PVal)}
    {thc' multi : PVal} {n : Option Nat} (h : Built d p d1 d2 d3 d4 ps thc' multi n)
    (hd : d.Distinct) : ∃ N, n = some N ∧ p.num = some N ∧ ps.length ≤ N := by
  have hd2 : d2.Distinct := h.headers.distinct (h.curated.distinct hd)
  have hd3 : d3.Distinct := h.guessed.distinct hd2
  -- the number is defined, because the headers are a list
  obtain ⟨N, hN⟩ : ∃ N, numSeries d2 = some N := by
    cases hn : numSeries d2 with
    | some N => exact ⟨N, rfl⟩
    | none =>
      have := ((numSeriesFrom_spec d2 none).1.1 hn).2 _ _ (PDict.mem_of_get? h.headers.headersCoord)
      cases this
  have hn : n = some N := by rw [h.num, hN]
  subst hn
  obtain ⟨⟨k, vs, hmem, hk, hlen⟩, hmax⟩ := numSeries_eq_some.1 hN
  have hheaders := hmax _ _ (PDict.mem_of_get? h.headers.headersCoord) (by simp)
  have hps : ps.length ≤ N := by simpa using hheaders
  -- lists of the dictionary before repetition
  have hmax3 : ∀ m vs, d3.get? m = some (.list vs) → m ≠ .missingValue → vs.length ≤ N := by
    intro m vs hm hne
    by_cases h2 : d2.get? m = some (.list vs)
    · exact hmax _ _ (PDict.mem_of_get? h2) (by simp [hne])
    · by_cases e1 : m = .timeMulticolumn
      · subst e1
        rcases h.guessed.multicolumn with ⟨x, hx, _, hx'⟩ | ⟨_, _, b, _, _, hb⟩
        · rw [hm] at hx'; exact absurd (by rw [hx, ← hx']) h2
        · rw [hm] at hb; cases hb
      · by_cases e2 : m = .alignment
        · subst e2
          rcases h.guessed.alignment with ⟨x, hx, _, hx'⟩ | ⟨_, a, ha, hb⟩
          · rw [hm] at hx'; exact absurd (by rw [hx, ← hx']) h2
          · rw [hm] at hb
            simp at hb
            subst hb
            exact absurd ha (guessAlignment_not_list _ _)
        · rw [h.guessed.others m e1 e2] at hm
          exact absurd hm h2
  refine ⟨N, rfl, Params.num_eq_some.2 ⟨?_, ?_⟩, hps⟩
  · -- attained
    have attain : ∀ m vs, d3.get? m = some (.list vs) → m ≠ .missingValue → vs.length = N →
        (optionalNames.contains m = true → 1 ≤ N) →
        ∃ n vs, p n = .list vs ∧ n ≠ .missingValue ∧ vs.length = N := by
      intro m vs hm hne hl hopt
      obtain ⟨v', ha, hv'⟩ := (applyEach_get? h.applied m).1 _ hm
      obtain ⟨ws, rfl, hws, hfull⟩ := applyToAll_length hne (Nat.le_of_eq hl) ha
      refine ⟨m, ws, ?_, hne, hfull hl⟩
      rw [h.result, applyOptional_get?]
      have : ¬ (optionalNames.contains m && d4.falsy m) = true := by
        rw [Bool.and_eq_true]
        rintro ⟨h1, h2⟩
        unfold PDict.falsy at h2
        rw [hv'] at h2
        have := hopt h1
        have := hfull hl
        cases ws with
        | nil => simp at this; omega
        | cons => simp [PVal.truthy] at h2
      rw [if_neg this, hv']
      rfl
    by_cases hz : N = 0
    · subst hz
      refine attain .headersCoord (ps.map (·.2)) ?_ (by decide) (by simp; simpa using hps)
        (fun hc => absurd hc (by decide))
      rw [h.guessed.others _ (by decide) (by decide)]
      exact h.headers.headersCoord
    · obtain ⟨m, rfl⟩ : ∃ m, k = .known m := by
        have h3 := h.guessed.keys k (List.mem_map_of_mem (f := (·.1)) hmem)
        simp only [List.mem_map] at h3
        obtain ⟨kv, hkv, rfl⟩ := h3
        exact applyEach_known h.applied kv hkv
      have hne : m ≠ .missingValue := fun e => hk (by rw [e])
      have hm2 : d2.get? m = some (.list vs) := PDict.get?_of_mem hd2 hmem
      have htr : (PVal.list vs).truthy = true := by
        cases vs with
        | nil => simp at hlen; omega
        | cons => rfl
      refine attain m vs ?_ hne hlen (fun _ => by omega)
      by_cases e1 : m = .timeMulticolumn
      · subst e1
        rcases h.guessed.multicolumn with ⟨x, hx, _, hx'⟩ | ⟨hf, _⟩
        · rw [hm2] at hx; rw [hx', ← hx]
        · unfold PDict.falsy at hf; rw [hm2] at hf; simp [htr] at hf
      · by_cases e2 : m = .alignment
        · subst e2
          rcases h.guessed.alignment with ⟨x, hx, _, hx'⟩ | ⟨hf, _⟩
          · rw [hm2] at hx; rw [hx', ← hx]
          · unfold PDict.falsy at hf; rw [hm2] at hf; simp [htr] at hf
        · rw [h.guessed.others m e1 e2, hm2]
  · -- not exceeded
    intro m ws hm hne
    rw [h.result, applyOptional_get?] at hm
    split at hm
    · next hopt =>
      simp only [Option.getD_some] at hm
      exact Nat.le_of_eq (applyGeneric_nonlist (v := .none) rfl hm)
    · cases h4 : d4.get? m with
      | none => rw [h4] at hm; simp at hm
      | some v4 =>
        rw [h4] at hm
        simp only [Option.getD_some] at hm
        subst hm
        cases h3 : d3.get? m with
        | none => rw [(applyEach_get? h.applied m).2 h3] at h4; cases h4
        | some v3 =>
          obtain ⟨v', ha, hv'⟩ := (applyEach_get? h.applied m).1 _ h3
          rw [h4] at hv'
          simp at hv'
          subst hv'
          cases v3 with
          | list vs =>
            obtain ⟨ws', e, hle, _⟩ := applyToAll_length hne (hmax3 m vs h3 hne) ha
            cases e
            exact hle
          | _ => exact Nat.le_of_eq (applyToAll_nonlist hne rfl ha rfl)

/-! ### Values of a built object -/

section
variable {d : PDict} {p : Params} {d1 d2 d3 d4 : PDict} {ps : List (List Str × PVal)}
  {thc' multi : PVal} {n : Option Nat}

/-- The value stored for a parameter that is simply repeated. -/
theorem Built.value_of (h : Built d p d1 d2 d3 d4 ps thc' multi n) {name : Name} {v v' : PVal}
    (hv : d3.get? name = some v) (ha : applyToAll name v n multi = .ok v')
    (ht : optionalNames.contains name = false ∨ v'.truthy = true) : p name = v' := by
  obtain ⟨v'', ha', h4⟩ := (applyEach_get? h.applied name).1 _ hv
  rw [ha] at ha'
  cases ha'
  rw [h.result, applyOptional_get?, if_neg, h4]
  · rfl
  · rw [Bool.and_eq_true]
    rintro ⟨h1, h2⟩
    unfold PDict.falsy at h2
    rw [h4] at h2
    rcases ht with ht | ht
    · rw [ht] at h1; cases h1
    · simp [ht] at h2

/-- Parameters the build only repeats. -/
def untouched : List Name :=
  [.seriesNames, .dataStarts, .dataEnds, .continuity, .blankRows, .missings, .timeComposed]

theorem Built.get?_frequency (h : Built d p d1 d2 d3 d4 ps thc' multi n) :
    ∃ f f', d.get? .frequency = some f ∧ curateFreq f = .ok f' ∧
      validateParams (d.put (.known .frequency) f') = .ok () ∧ d3.get? .frequency = some f' := by
  obtain ⟨f, f', h1, h2, h3, rfl⟩ := h.curated.curated
  refine ⟨f, f', h1, h2, h3, ?_⟩
  rw [h.guessed.others _ (by decide) (by decide),
    h.headers.others _ (by decide) (by decide) (by decide) (by decide), missingsToDefault_get?]
  simp [useDefault, PDict.get?_put_self]

theorem Built.get?_d1 (h : Built d p d1 d2 d3 d4 ps thc' multi n) {name : Name}
    (h1 : name ≠ .frequency) (h2 : name ∈ useDefault → d.absent name = false) :
    d1.get? name = d.get? name := by
  obtain ⟨f, f', _, _, _, rfl⟩ := h.curated.curated
  have e : (d.put (.known .frequency) f').get? name = d.get? name :=
    PDict.get?_put_other _ _ (Ne.symm h1)
  rw [missingsToDefault_get?, if_neg, e]
  rw [Bool.and_eq_true]
  rintro ⟨h3, h4⟩
  unfold PDict.absent at h4
  rw [e] at h4
  have := h2 (by simpa using h3)
  unfold PDict.absent at this
  rw [h4] at this
  cases this

theorem Built.get?_untouched (h : Built d p d1 d2 d3 d4 ps thc' multi n) {name : Name}
    (hn : name ∈ untouched ∨ (name = .timeAlignment ∧ d.absent .timeAlignment = false)) :
    d3.get? name = d.get? name := by
  have key : name ≠ .timeMulticolumn ∧ name ≠ .alignment ∧ name ≠ .headersCoord ∧
      name ≠ .timeHeaderCoord ∧ name ≠ .composedHeadersCoord ∧ name ≠ .context ∧
      name ≠ .frequency ∧ (name ∈ useDefault → d.absent name = false) := by
    rcases hn with hn | ⟨rfl, hn⟩
    · simp only [untouched, List.mem_cons, List.not_mem_nil, or_false] at hn
      rcases hn with rfl | rfl | rfl | rfl | rfl | rfl | rfl <;> simp [useDefault]
    · simp [useDefault, hn]
  obtain ⟨a1, a2, a3, a4, a5, a6, a7, a8⟩ := key
  rw [h.guessed.others _ a1 a2, h.headers.others _ a3 a4 a5 a6, h.get?_d1 a7 a8]

theorem Built.get?_given (h : Built d p d1 d2 d3 d4 ps thc' multi n) {name : Name} {v : PVal}
    (hn : name = .alignment ∨ name = .timeMulticolumn) (hv : d.get? name = some v)
    (ht : v.truthy = true) : d3.get? name = some v := by
  have e : d2.get? name = some v := by
    rw [h.headers.others, h.get?_d1, hv] <;> rcases hn with rfl | rfl <;> simp [useDefault]
  rcases hn with rfl | rfl
  · rcases h.guessed.alignment with ⟨x, hx, _, hx'⟩ | ⟨hf, _⟩
    · rw [hx', ← hx, e]
    · unfold PDict.falsy at hf; rw [e] at hf; simp [ht] at hf
  · rcases h.guessed.multicolumn with ⟨x, hx, _, hx'⟩ | ⟨hf, _⟩
    · rw [hx', ← hx, e]
    · unfold PDict.falsy at hf; rw [e] at hf; simp [ht] at hf

end

/-! ### One series -/

theorem seriesDict_spec {p : Params} {i : Nat} {ns : List Name} {s : List (Name × PVal)}
    (h : p.seriesDict i ns = .ok s) :
    ∀ m v, (m, v) ∈ s ↔ m ∈ ns ∧ ∃ vs, p m = .list vs ∧ vs[i]? = some v := by
  induction ns generalizing s with
  | nil => cases h; simp
  | cons n ns ih =>
    rw [Params.seriesDict] at h
    intro m v
    split at h
    · next hn =>
      rw [ih h m v]
      constructor
      · rintro ⟨h1, h2⟩; exact ⟨List.mem_cons_of_mem _ h1, h2⟩
      · rintro ⟨h1, vs, h2, h3⟩
        refine ⟨?_, vs, h2, h3⟩
        simp only [List.mem_cons] at h1
        rcases h1 with rfl | h1
        · rw [h2] at hn; simp [PVal.isNone] at hn
        · exact h1
    · obtain ⟨x, h1, h⟩ := bind_ok h
      obtain ⟨rest, h2, h⟩ := bind_ok h
      have := pure_ok h
      subst this
      have hx : ∃ vs, p n = .list vs ∧ vs[i]? = some x := by
        unfold Params.index at h1
        split at h1
        · next vs e =>
          split at h1
          · next y hy => cases h1; exact ⟨vs, e, hy⟩
          · cases h1
        · cases h1
      simp only [List.mem_cons, Prod.mk.injEq, ih h2 m v]
      constructor
      · rintro (⟨rfl, rfl⟩ | ⟨h3, h4⟩)
        · exact ⟨Or.inl rfl, hx⟩
        · exact ⟨Or.inr h3, h4⟩
      · rintro ⟨h3 | h3, h4⟩
        · subst h3
          obtain ⟨vs, e, hvs⟩ := hx
          obtain ⟨vs', e', hvs'⟩ := h4
          rw [e] at e'
          cases e'
          rw [hvs] at hvs'
          simp at hvs'
          exact Or.inl ⟨rfl, hvs'.symm⟩
        · exact Or.inr ⟨h3, h4⟩

theorem Name.mem_all (n : Name) : n ∈ Name.all := by cases n <;> decide

end Xls
