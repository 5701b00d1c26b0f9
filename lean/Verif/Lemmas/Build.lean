/-
Taking a successful build of parameters apart.
-/
import Verif.Model.Params
import Verif.Lemmas.Text

set_option autoImplicit false

namespace Xls

/-! ### Except -/

theorem bind_ok {α β : Type} {x : Except Err α} {f : α → Except Err β} {b : β}
    (h : (x >>= f) = .ok b) : ∃ a, x = .ok a ∧ f a = .ok b := by
  cases x with
  | error e => cases h
  | ok a => exact ⟨a, rfl, h⟩

theorem bind_intro {α β : Type} {x : Except Err α} {f : α → Except Err β} {a : α}
    (h : x = .ok a) : (x >>= f) = f a := by rw [h]; rfl

theorem pure_ok {α : Type} {a b : α} (h : (pure a : Except Err α) = .ok b) : a = b := by
  cases h; rfl

/-! ### Dictionaries -/

namespace PDict

theorem get?_put (d : PDict) (k : Key) (v : PVal) (n : Name) :
    (d.put k v).get? n = if k = .known n then some v else d.get? n := by
  induction d with
  | nil => simp [put, get?]
  | cons kv d ih =>
    obtain ⟨k', v'⟩ := kv
    simp only [put]
    by_cases h : k' = k
    · subst h
      simp only [if_true, get?]
      split <;> rfl
    · rw [if_neg h]
      simp only [get?]
      by_cases h1 : k' = .known n
      · subst h1
        have : k ≠ .known n := fun e => h e.symm
        simp [this]
      · simp only [h1, if_false, ih]

theorem get?_put_self (d : PDict) (v : PVal) (n : Name) :
    (d.put (.known n) v).get? n = some v := by simp [get?_put]

theorem get?_put_other (d : PDict) (v : PVal) {n m : Name} (h : m ≠ n) :
    (d.put (.known m) v).get? n = d.get? n := by simp [get?_put, h]

theorem get_ok {d : PDict} {n : Name} {v : PVal} : d.get n = .ok v ↔ d.get? n = some v := by
  unfold get
  split
  · next w h => rw [h]; simp
  · next h => rw [h]; simp

theorem mem_of_get? {d : PDict} {n : Name} {v : PVal} (h : d.get? n = some v) :
    (Key.known n, v) ∈ d := by
  induction d with
  | nil => simp [get?] at h
  | cons kv d ih =>
    obtain ⟨k, w⟩ := kv
    simp only [get?] at h
    split at h
    · next hk => simp at h; subst hk; subst h; simp
    · exact List.mem_cons_of_mem _ (ih h)

/-- Keys are distinct, as in any Python dictionary. -/
def Distinct (d : PDict) : Prop := (d.map (·.1)).Nodup

theorem get?_of_mem {d : PDict} (hd : d.Distinct) {n : Name} {v : PVal}
    (h : (Key.known n, v) ∈ d) : d.get? n = some v := by
  induction d with
  | nil => simp at h
  | cons kv d ih =>
    obtain ⟨k, w⟩ := kv
    simp only [Distinct, List.map_cons, List.nodup_cons] at hd
    simp only [List.mem_cons, Prod.mk.injEq] at h
    simp only [get?]
    rcases h with ⟨rfl, rfl⟩ | h
    · simp
    · have : k ≠ .known n := fun e => hd.1 (by
        rw [e]; exact List.mem_map_of_mem (f := (·.1)) h)
      rw [if_neg this]
      exact ih hd.2 h

theorem keys_put (d : PDict) (k : Key) (v : PVal) :
    ∀ x, x ∈ (d.put k v).map (·.1) ↔ x ∈ d.map (·.1) ∨ x = k := by
  induction d with
  | nil => simp [put]
  | cons kv d ih =>
    obtain ⟨k', v'⟩ := kv
    intro x
    simp only [put]
    by_cases h : k' = k
    · subst h
      simp only [if_true, List.map_cons, List.mem_cons]
      constructor
      · rintro (h | h)
        · exact Or.inl (Or.inl h)
        · exact Or.inl (Or.inr h)
      · rintro ((h | h) | h)
        · exact Or.inl h
        · exact Or.inr h
        · exact Or.inl h
    · rw [if_neg h]
      simp only [List.map_cons, List.mem_cons, ih x]
      constructor
      · rintro (h | h | h)
        · exact Or.inl (Or.inl h)
        · exact Or.inl (Or.inr h)
        · exact Or.inr h
      · rintro ((h | h) | h)
        · exact Or.inl h
        · exact Or.inr (Or.inl h)
        · exact Or.inr (Or.inr h)

theorem distinct_put {d : PDict} (hd : d.Distinct) (k : Key) (v : PVal) : (d.put k v).Distinct := by
  induction d with
  | nil => simp [put, Distinct]
  | cons kv d ih =>
    obtain ⟨k', v'⟩ := kv
    simp only [Distinct, List.map_cons, List.nodup_cons] at hd
    simp only [put]
    by_cases h : k' = k
    · subst h
      simp only [if_true, Distinct, List.map_cons, List.nodup_cons]
      exact hd
    · rw [if_neg h]
      simp only [Distinct, List.map_cons, List.nodup_cons]
      refine ⟨fun hmem => ?_, ih hd.2⟩
      rcases (keys_put d k v k').1 hmem with h1 | h1
      · exact hd.1 h1
      · exact h h1

end PDict

/-! ### The parts of a build -/

set_option linter.unusedSimpArgs false in
theorem missingsToDefault_get? (d : PDict) (n : Name) :
    (missingsToDefault d).get? n =
      if useDefault.contains n && d.absent n then defaultValue n else d.get? n := by
  unfold missingsToDefault
  simp only [useDefault, List.foldl_cons, List.foldl_nil]
  have e1 : hasNone (validValues .timeAlignment) = false := rfl
  have e2 : hasNone (validValues .missingValue) = false := rfl
  simp only [e1, e2, defaultValue, Bool.not_false, Bool.and_true]
  cases n <;> cases h1 : d.absent .timeAlignment <;> cases h2 : d.absent .missingValue <;>
    simp [PDict.get?_put, h1, h2]

theorem missingsToDefault_keys (d : PDict) :
    ∀ x ∈ d.map (·.1), x ∈ (missingsToDefault d).map (·.1) := by
  intro x hx
  unfold missingsToDefault
  simp only [useDefault, List.foldl_cons, List.foldl_nil]
  have key : ∀ (acc : PDict) (k : Key) (v : PVal), x ∈ acc.map (·.1) →
      x ∈ (acc.put k v).map (·.1) := fun acc k v h => (PDict.keys_put acc k v x).2 (Or.inl h)
  split
  · split
    · split
      · split
        · exact key _ _ _ (key _ _ _ hx)
        · exact key _ _ _ hx
      · exact key _ _ _ hx
    · split
      · split
        · exact key _ _ _ hx
        · exact hx
      · exact hx
  · split
    · split
      · exact key _ _ _ hx
      · exact hx
    · exact hx

theorem missingsToDefault_distinct {d : PDict} (hd : d.Distinct) :
    (missingsToDefault d).Distinct := by
  unfold missingsToDefault
  simp only [useDefault, List.foldl_cons, List.foldl_nil]
  split
  · split
    · split
      · split
        · exact PDict.distinct_put (PDict.distinct_put hd _ _) _ _
        · exact PDict.distinct_put hd _ _
      · exact PDict.distinct_put hd _ _
    · split
      · split
        · exact PDict.distinct_put hd _ _
        · exact hd
      · exact hd
  · split
    · split
      · exact PDict.distinct_put hd _ _
      · exact hd
    · exact hd

/-- What the first part of a build does. -/
structure Curated (d d1 : PDict) : Prop where
  critical : checkHasCritical d critical = .ok ()
  curated : ∃ f f', d.get? .frequency = some f ∧ curateFreq f = .ok f' ∧
    validateParams (d.put (.known .frequency) f') = .ok () ∧
    d1 = missingsToDefault (d.put (.known .frequency) f')

theorem buildCurated_ok {d d1 : PDict} (h : buildCurated d = .ok d1) : Curated d d1 := by
  unfold buildCurated at h
  obtain ⟨u, h1, h⟩ := bind_ok h
  obtain ⟨f, h2, h⟩ := bind_ok h
  obtain ⟨f', h3, h⟩ := bind_ok h
  obtain ⟨u', h4, h⟩ := bind_ok h
  exact ⟨h1, f, f', PDict.get_ok.1 h2, h3, h4, (pure_ok h).symm⟩

/-- What the second part of a build does. -/
structure WithHeaders (d1 d2 : PDict) (ps : List (List Str × PVal)) (thc' : PVal) : Prop where
  headers : ∃ hc, d1.get? .headersCoord = some hc ∧ processHeaders hc = .ok ps
  time : ∃ thc, d1.get? .timeHeaderCoord = some thc ∧ unpackRanges thc = .ok thc'
  headersCoord : d2.get? .headersCoord = some (headersOf ps)
  timeHeader : d2.get? .timeHeaderCoord = some thc'
  composed : d2.get? .composedHeadersCoord =
    if anyComposed ps then some (composedOf ps) else d1.get? .composedHeadersCoord
  context : (d1.falsy .context = true ∧ d2.get? .context = d1.get? .context) ∨
    (∃ c c', d1.get? .context = some c ∧ c.truthy = true ∧
      processContext c (headersOf ps) = .ok c' ∧ d2.get? .context = some c')
  others : ∀ n, n ≠ .headersCoord → n ≠ .timeHeaderCoord → n ≠ .composedHeadersCoord →
    n ≠ .context → d2.get? n = d1.get? n
  keys : ∀ x ∈ d1.map (·.1), x ∈ d2.map (·.1)
  distinct : d1.Distinct → d2.Distinct

theorem buildHeaders_ok {d1 d2 : PDict} (h : buildHeaders d1 = .ok d2) :
    ∃ ps thc', WithHeaders d1 d2 ps thc' := by
  unfold buildHeaders at h
  obtain ⟨hc, h1, h⟩ := bind_ok h
  obtain ⟨ps, h2, h⟩ := bind_ok h
  obtain ⟨thc, h3, h⟩ := bind_ok h
  obtain ⟨thc', h4, h⟩ := bind_ok h
  have h1 := PDict.get_ok.1 h1
  have h3 := PDict.get_ok.1 h3
  -- the dictionary with the headers and the time header in place
  generalize hA : d1.put (.known .headersCoord) (headersOf ps) = A at h h3
  generalize hB : (if anyComposed ps then A.put (.known .composedHeadersCoord) (composedOf ps)
    else A) = B at h h3
  generalize hC : B.put (.known .timeHeaderCoord) thc' = C at h
  have gA : ∀ n, A.get? n = if n = .headersCoord then some (headersOf ps) else d1.get? n := by
    intro n
    rw [← hA, PDict.get?_put]
    by_cases e : n = .headersCoord
    · subst e; simp
    · have : ¬ (Key.known .headersCoord = Key.known n) := fun e' => e (by cases e'; rfl)
      simp [e, this]
  have gB : ∀ n, B.get? n = if n = .composedHeadersCoord ∧ anyComposed ps = true then
      some (composedOf ps) else A.get? n := by
    intro n
    rw [← hB]
    by_cases ha : anyComposed ps = true
    · rw [if_pos ha, PDict.get?_put]
      by_cases e : n = .composedHeadersCoord
      · subst e; simp [ha]
      · have : ¬ (Key.known .composedHeadersCoord = Key.known n) := fun e' => e (by cases e'; rfl)
        simp [e, this]
    · rw [if_neg ha]; simp [ha]
  have gC : ∀ n, C.get? n = if n = .timeHeaderCoord then some thc' else B.get? n := by
    intro n
    rw [← hC, PDict.get?_put]
    by_cases e : n = .timeHeaderCoord
    · subst e; simp
    · have : ¬ (Key.known .timeHeaderCoord = Key.known n) := fun e' => e (by cases e'; rfl)
      simp [e, this]
  have h3' : d1.get? .timeHeaderCoord = some thc := by
    rw [gB, gA] at h3; simpa using h3
  have cC : C.get? .context = d1.get? .context := by rw [gC, gB, gA]; simp
  have dC : d1.Distinct → C.Distinct := by
    intro hd
    rw [← hC]
    apply PDict.distinct_put
    rw [← hB]
    have dA : A.Distinct := by rw [← hA]; exact PDict.distinct_put hd _ _
    split
    · exact PDict.distinct_put dA _ _
    · exact dA
  have kC : ∀ x ∈ d1.map (·.1), x ∈ C.map (·.1) := by
    intro x hx
    rw [← hC, PDict.keys_put]
    refine Or.inl ?_
    have hx' : x ∈ A.map (·.1) := by rw [← hA, PDict.keys_put]; exact Or.inl hx
    rw [← hB]
    split
    · rw [PDict.keys_put]; exact Or.inl hx'
    · exact hx'
  dsimp only at h
  split at h
  · next hf =>
    have := pure_ok h
    subst this
    refine ⟨ps, thc', ⟨hc, h1, h2⟩, ⟨thc, h3', h4⟩, ?_, ?_, ?_, Or.inl ⟨?_, cC⟩, ?_, kC, dC⟩
    · rw [gC, gB, gA]; simp
    · rw [gC]; simp
    · rw [gC, gB, gA]; simp
    · unfold PDict.falsy at hf ⊢; rwa [cC] at hf
    · intro n n1 n2 n3 _
      rw [gC, gB, gA]; simp [n1, n2, n3]
  · next hf =>
    obtain ⟨c, h5, h⟩ := bind_ok h
    obtain ⟨c', h6, h⟩ := bind_ok h
    have := pure_ok h
    subst this
    have h5 := PDict.get_ok.1 h5
    refine ⟨ps, thc', ⟨hc, h1, h2⟩, ⟨thc, h3', h4⟩, ?_, ?_, ?_, Or.inr ⟨c, c', ?_, ?_, h6, ?_⟩, ?_,
      fun x hx => (PDict.keys_put _ _ _ x).2 (Or.inl (kC x hx)),
      fun hd => PDict.distinct_put (dC hd) _ _⟩
    · rw [PDict.get?_put_other _ _ (by decide), gC, gB, gA]; simp
    · rw [PDict.get?_put_other _ _ (by decide), gC]; simp
    · rw [PDict.get?_put_other _ _ (by decide), gC, gB, gA]; simp
    · rw [← cC]; exact h5
    · unfold PDict.falsy at hf; rw [h5] at hf; simpa using hf
    · rw [PDict.get?_put_self]
    · intro n n1 n2 n3 n4
      rw [PDict.get?_put_other _ _ (Ne.symm n4), gC, gB, gA]; simp [n1, n2, n3]

/-- What the third part of a build does. -/
structure Guessed (d2 d3 : PDict) (hs : List PVal) : Prop where
  consistent : ∃ starts, d2.get? .dataStarts = some starts ∧
    checkConsistency starts hs (d2.get? .alignment) = .ok ()
  multicolumn : (∃ m, d2.get? .timeMulticolumn = some m ∧ m.truthy = true ∧
      d3.get? .timeMulticolumn = some m) ∨
    (d2.falsy .timeMulticolumn = true ∧ ∃ thc b, d2.get? .timeHeaderCoord = some thc ∧
      guessMulticolumn thc (numSeries d2) = .ok b ∧ d3.get? .timeMulticolumn = some (.bool b))
  alignment : (∃ a, d2.get? .alignment = some a ∧ a.truthy = true ∧
      d3.get? .alignment = some a) ∨
    (d2.falsy .alignment = true ∧ ∃ a, guessAlignment hs = .ok a ∧ d3.get? .alignment = some a)
  others : ∀ n, n ≠ .timeMulticolumn → n ≠ .alignment → d3.get? n = d2.get? n
  keys : ∀ x ∈ d2.map (·.1), x ∈ d3.map (·.1)
  distinct : d2.Distinct → d3.Distinct

theorem buildGuesses_ok {d2 d3 : PDict} {hs : List PVal} (h : buildGuesses d2 = .ok d3)
    (hh : d2.get? .headersCoord = some (.list hs)) : Guessed d2 d3 hs := by
  unfold buildGuesses at h
  obtain ⟨starts, h1, h⟩ := bind_ok h
  obtain ⟨hc, h2, h⟩ := bind_ok h
  have h2 := PDict.get_ok.1 h2
  rw [hh] at h2
  simp at h2
  subst h2
  obtain ⟨u, h3, h⟩ := bind_ok h
  obtain ⟨E, h4, h⟩ := bind_ok h
  unfold guessMultiStep at h4
  unfold guessAlignStep at h
  have hE : ((∃ m, d2.get? .timeMulticolumn = some m ∧ m.truthy = true ∧
      E.get? .timeMulticolumn = some m) ∨
      (d2.falsy .timeMulticolumn = true ∧ ∃ thc b, d2.get? .timeHeaderCoord = some thc ∧
        guessMulticolumn thc (numSeries d2) = .ok b ∧ E.get? .timeMulticolumn = some (.bool b))) ∧
      (∀ n, n ≠ .timeMulticolumn → E.get? n = d2.get? n) ∧ (d2.Distinct → E.Distinct) ∧
      (∀ x ∈ d2.map (·.1), x ∈ E.map (·.1)) := by
    split at h4
    · next hf =>
      obtain ⟨thc, h5, h4⟩ := bind_ok h4
      obtain ⟨b, h6, h4⟩ := bind_ok h4
      have := pure_ok h4
      subst this
      refine ⟨Or.inr ⟨hf, thc, b, PDict.get_ok.1 h5, h6, PDict.get?_put_self _ _ _⟩, ?_,
        fun hd => PDict.distinct_put hd _ _,
        fun x hx => (PDict.keys_put _ _ _ x).2 (Or.inl hx)⟩
      intro n hn
      exact PDict.get?_put_other _ _ (Ne.symm hn)
    · next hf =>
      cases h4
      refine ⟨Or.inl ?_, fun _ _ => rfl, fun hd => hd, fun _ hx => hx⟩
      unfold PDict.falsy at hf
      cases hm : d2.get? .timeMulticolumn with
      | none => rw [hm] at hf; simp at hf
      | some m => rw [hm] at hf; exact ⟨m, rfl, by simpa using hf, rfl⟩
  obtain ⟨hE1, hE2, hE3, hE4⟩ := hE
  split at h
  · next hf =>
    obtain ⟨a, h5, h⟩ := bind_ok h
    have := pure_ok h
    subst this
    refine ⟨⟨starts, PDict.get_ok.1 h1, h3⟩, ?_, Or.inr ⟨?_, a, h5, PDict.get?_put_self _ _ _⟩, ?_,
      fun x hx => (PDict.keys_put _ _ _ x).2 (Or.inl (hE4 x hx)),
      fun hd => PDict.distinct_put (hE3 hd) _ _⟩
    · rw [PDict.get?_put_other _ _ (by decide)]; exact hE1
    · unfold PDict.falsy at hf ⊢
      rwa [hE2 _ (by decide)] at hf
    · intro n n1 n2
      rw [PDict.get?_put_other _ _ (Ne.symm n2), hE2 n n1]
  · next hf =>
    cases h
    refine ⟨⟨starts, PDict.get_ok.1 h1, h3⟩, hE1, Or.inl ?_, fun n n1 _ => hE2 n n1, hE4, hE3⟩
    unfold PDict.falsy at hf
    rw [hE2 _ (by decide)] at hf ⊢
    cases hm : d2.get? .alignment with
    | none => rw [hm] at hf; simp at hf
    | some m => rw [hm] at hf; exact ⟨m, rfl, by simpa using hf, rfl⟩

/-- The values after the loop that repeats them for each series. -/
theorem applyEach_get? {n : Option Nat} {multi : PVal} {d d' : PDict}
    (h : applyEach n multi d = .ok d') (name : Name) :
    (∀ v, d.get? name = some v → ∃ v', applyToAll name v n multi = .ok v' ∧
      d'.get? name = some v') ∧ (d.get? name = none → d'.get? name = none) := by
  induction d generalizing d' with
  | nil =>
    cases h
    simp [PDict.get?]
  | cons kv d ih =>
    obtain ⟨k, w⟩ := kv
    cases k with
    | unknown s => cases h
    | known m =>
      rw [applyEach] at h
      obtain ⟨w', h1, h⟩ := bind_ok h
      obtain ⟨r, h2, h⟩ := bind_ok h
      have := pure_ok h
      subst this
      obtain ⟨ih1, ih2⟩ := ih h2
      by_cases hm : m = name
      · subst hm
        constructor
        · intro v hv
          simp [PDict.get?] at hv
          subst hv
          exact ⟨w', h1, by simp [PDict.get?]⟩
        · intro hv
          simp [PDict.get?] at hv
      · constructor
        · intro v hv
          simp only [PDict.get?, Key.known.injEq, hm, if_false] at hv ⊢
          exact ih1 v hv
        · intro hv
          simp only [PDict.get?, Key.known.injEq, hm, if_false] at hv ⊢
          exact ih2 hv

theorem applyEach_known {n : Option Nat} {multi : PVal} {d d' : PDict}
    (h : applyEach n multi d = .ok d') : ∀ kv ∈ d, ∃ m, kv.1 = .known m := by
  induction d generalizing d' with
  | nil => simp
  | cons kv d ih =>
    obtain ⟨k, w⟩ := kv
    cases k with
    | unknown s => cases h
    | known m =>
      rw [applyEach] at h
      obtain ⟨w', h1, h⟩ := bind_ok h
      obtain ⟨r, h2, h⟩ := bind_ok h
      intro kv hkv
      simp only [List.mem_cons] at hkv
      rcases hkv with rfl | hkv
      · exact ⟨m, rfl⟩
      · exact ih h2 kv hkv

theorem applyEach_keys {n : Option Nat} {multi : PVal} {d d' : PDict}
    (h : applyEach n multi d = .ok d') : d'.map (·.1) = d.map (·.1) := by
  induction d generalizing d' with
  | nil => cases h; rfl
  | cons kv d ih =>
    obtain ⟨k, w⟩ := kv
    cases k with
    | unknown s => cases h
    | known m =>
      rw [applyEach] at h
      obtain ⟨w', h1, h⟩ := bind_ok h
      obtain ⟨r, h2, h⟩ := bind_ok h
      have := pure_ok h
      subst this
      simp [ih h2]

theorem applyOptional_get? (n : Option Nat) (d : PDict) (name : Name) :
    (applyOptional n d).get? name =
      if optionalNames.contains name && d.falsy name then
        some (applyGeneric .none n (validValues name))
      else d.get? name := by
  have step : ∀ (acc : PDict) (m : Name) (name : Name),
      (fillOptional n acc m).get? name =
      if name = m ∧ acc.falsy m = true then some (applyGeneric .none n (validValues name))
      else acc.get? name := by
    intro acc m name
    unfold PDict.falsy fillOptional
    cases hm : acc.get? m with
    | none =>
      simp only [PDict.get?_put, and_true]
      by_cases e : name = m
      · subst e; simp
      · have : ¬ (Key.known m = Key.known name) := fun e' => e (by cases e'; rfl)
        simp [e, this]
    | some v =>
      cases hv : v.truthy with
      | true => simp [hv]
      | false =>
        simp only [hv, Bool.false_eq_true, if_false, PDict.get?_put, Bool.not_false, and_true]
        by_cases e : name = m
        · subst e; simp
        · have : ¬ (Key.known m = Key.known name) := fun e' => e (by cases e'; rfl)
          simp [e, this]
  unfold applyOptional
  simp only [optionalNames, List.foldl_cons, List.foldl_nil]
  have hf : ∀ (acc : PDict) (m name : Name), m ≠ name →
      (fillOptional n acc m).falsy name = acc.falsy name := by
    intro acc m name hne
    have := step acc m name
    rw [if_neg (fun e => hne e.1.symm)] at this
    unfold PDict.falsy
    rw [this]
  rw [step, step, step, step]
  cases name <;> simp [hf]

/-- What a whole successful build does, from the user's dictionary `d` to the object `p`. -/
structure Built (d : PDict) (p : Params) (d1 d2 d3 d4 : PDict) (ps : List (List Str × PVal))
    (thc' multi : PVal) (n : Option Nat) : Prop where
  curated : Curated d d1
  headers : WithHeaders d1 d2 ps thc'
  num : n = numSeries d2
  guessed : Guessed d2 d3 (ps.map (·.2))
  multiValue : d3.get? .timeMulticolumn = some multi
  applied : applyEach n multi d3 = .ok d4
  result : ∀ name, p name = ((applyOptional n d4).get? name).getD .none

theorem ofDict_ok {d : PDict} {p : Params} (h : Params.ofDict d = .ok p) :
    ∃ d1 d2 d3 d4 ps thc' multi n, Built d p d1 d2 d3 d4 ps thc' multi n := by
  unfold Params.ofDict at h
  obtain ⟨b, h1, h⟩ := bind_ok h
  have := pure_ok h
  subst this
  unfold build at h1
  obtain ⟨d1, h2, h1⟩ := bind_ok h1
  obtain ⟨d2, h3, h1⟩ := bind_ok h1
  obtain ⟨d3, h4, h1⟩ := bind_ok h1
  obtain ⟨multi, h5, h1⟩ := bind_ok h1
  obtain ⟨d4, h6, h1⟩ := bind_ok h1
  have := pure_ok h1
  subst this
  obtain ⟨ps, thc', hw⟩ := buildHeaders_ok h3
  exact ⟨d1, d2, d3, d4, ps, thc', multi, _, buildCurated_ok h2, hw, rfl,
    buildGuesses_ok h4 hw.headersCoord, PDict.get_ok.1 h5, h6, fun _ => rfl⟩

theorem new_dict_ok {d : PDict} {p : Params} (h : Params.new (.dict d) = .ok p) (hd : d ≠ []) :
    Params.ofDict d = .ok p := by
  simp only [Params.new] at h
  rwa [if_neg hd] at h

end Xls
