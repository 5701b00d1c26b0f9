/-
What validation accepts.
-/
import Verif.Lemmas.BuildErrors
import Verif.Lemmas.NumSeries
import Verif.Spec.Params

set_option autoImplicit false

namespace Xls
open Spec

theorem pyEq_str (v : PVal) (s : Str) : v.pyEq (.str s) = true ↔ v = .str s := by
  cases v with
  | none => simp [PVal.pyEq]
  | bool b => simp [PVal.pyEq, PVal.number]
  | int b => simp [PVal.pyEq, PVal.number]
  | float x => cases x <;> simp [PVal.pyEq, PVal.number]
  | str a => simp [PVal.pyEq]
  | list a => simp [PVal.pyEq]
  | dict a => simp [PVal.pyEq]

theorem pyEq_none (v : PVal) : v.pyEq .none = true ↔ v = .none := by
  cases v with
  | none => simp [PVal.pyEq]
  | bool b => simp [PVal.pyEq, PVal.number]
  | int b => simp [PVal.pyEq, PVal.number]
  | float x => cases x <;> simp [PVal.pyEq, PVal.number]
  | str a => simp [PVal.pyEq]
  | list a => simp [PVal.pyEq]
  | dict a => simp [PVal.pyEq]

theorem pyEq_number (v w : PVal) {q : Rat} (hw : w.number = some q) :
    v.pyEq w = true ↔ v.number = some q := by
  cases v with
  | none => cases w <;> simp_all [PVal.pyEq, PVal.number]
  | bool b => simp only [PVal.pyEq, hw]; simp [PVal.number]
  | int b => simp only [PVal.pyEq, hw]; simp [PVal.number]
  | float x => cases x <;> simp only [PVal.pyEq, hw] <;> simp [PVal.number]
  | str a => cases w <;> simp_all [PVal.pyEq, PVal.number]
  | list a => cases w <;> simp_all [PVal.pyEq, PVal.number]
  | dict a => cases w <;> simp_all [PVal.pyEq, PVal.number]

theorem accepts_tStr (v : PVal) : Valid.tStr.accepts v = true ↔ IsText v := by
  cases v <;> simp [Valid.accepts, IsText]

theorem accepts_tList (v : PVal) : Valid.tList.accepts v = true ↔ IsListValue v := by
  cases v <;> simp [Valid.accepts, IsListValue]

theorem accepts_tDict (v : PVal) : Valid.tDict.accepts v = true ↔ ∃ kvs, v = .dict kvs := by
  cases v <;> simp [Valid.accepts]

theorem accepts_tInt (v : PVal) : Valid.tInt.accepts v = true ↔ IsInteger v := by
  cases v <;> simp [Valid.accepts, IsInteger]

theorem accepts_str (v : PVal) (s : Str) : (Valid.val (.str s)).accepts v = true ↔ v = .str s := by
  simp only [Valid.accepts]; exact pyEq_str v s

theorem accepts_none (v : PVal) : (Valid.val .none).accepts v = true ↔ v = .none := by
  simp only [Valid.accepts]; exact pyEq_none v

theorem accepts_bool (v : PVal) (b : Bool) :
    (Valid.val (.bool b)).accepts v = true ↔ v.number = some (if b then 1 else 0) := by
  simp only [Valid.accepts]; exact pyEq_number v _ rfl

theorem accepts_int (v : PVal) (i : Int) :
    (Valid.val (.int i)).accepts v = true ↔ v.number = some (i : Rat) := by
  simp only [Valid.accepts]; exact pyEq_number v _ rfl

theorem validParamValue_iff {n : Name} {v : PVal} (h1 : n ≠ .frequency) (h2 : n ≠ .context) :
    validParamValue v (validValues n) = true ↔ AllowedOne n v := by
  cases n <;> simp_all [validParamValue, validValues, AllowedOne, TrueOrFalse, accepts_tStr,
    accepts_tList, accepts_tInt, accepts_str, accepts_none, accepts_bool, accepts_int]

theorem validContext_iff (v : PVal) :
    validParamValue v (validValues .context) = true ↔ AllowedContext v := by
  simp [validParamValue, validValues, AllowedContext, accepts_tStr, accepts_tList, accepts_tDict,
    accepts_none]

theorem freqTranslate_means (s : Str) : FreqMeans s (freqTranslate (upper s)) := by
  unfold FreqMeans freqTranslate
  by_cases h1 : upper s = c!"Y"
  · simp [h1]
  · by_cases h2 : upper s = c!"YQQQQ"
    · simp [h2]
    · by_cases h3 : upper s = c!"QQQQY"
      · simp [h3]
      · simp [h1, h2, h3]

theorem freqMeans_eq {s f : Str} (h : FreqMeans s f) : f = freqTranslate (upper s) := by
  unfold freqTranslate
  rcases h with ⟨h, rfl⟩ | ⟨h, rfl⟩ | ⟨h, rfl⟩ | ⟨h1, h2, h3, rfl⟩
  · rw [h]; rfl
  · rw [h]; rfl
  · rw [h]; rfl
  · simp [h1, h2, h3]

instance (f : Str) : Decidable (FreqCode f) := by unfold FreqCode; infer_instance

theorem validFreq_str (f : Str) : validFreq (.str f) = .ok (decide (FreqCode f)) := by
  simp only [validFreq, Except.ok.injEq]
  rw [Bool.eq_iff_iff, decide_eq_true_iff, List.all_eq_true]
  unfold FreqCode freqChars
  simp only [List.contains_iff_mem]

/-! ### One parameter -/

/-- What validation accepts of a curated value. -/
def Passes : Name → PVal → Prop
  | .frequency, v => (∃ f, v = .str f ∧ FreqCode f) ∨
      ∃ vs, v = .list vs ∧ ∀ x ∈ vs, ∃ f, x = .str f ∧ FreqCode f
  | n, v => Allowed n v

theorem validateValues_ok {k : Key} {w : PVal} {vs : List PVal} :
    validateValues k w vs = .ok () ↔ ∀ v ∈ vs, validateValue k w v = .ok () := by
  induction vs with
  | nil => simp [validateValues]
  | cons v vs ih =>
    rw [validateValues]
    split
    · next e h => simp [h]
    · next h => simp [h, ih]

theorem validateValue_freq {w v : PVal} :
    validateValue (.known .frequency) w v = .ok () ↔ ∃ f, v = .str f ∧ FreqCode f := by
  unfold validateValue
  cases v with
  | str f =>
    simp only [validFreq_str]
    by_cases h : FreqCode f
    · simp [h]
    · simp [h]
  | _ => simp [validFreq]

theorem validateValue_context {w v : PVal} :
    validateValue (.known .context) w v = .ok () ↔
      ∃ kvs, w = .dict kvs ∧ ∀ kv ∈ kvs, AllowedContext kv.2 := by
  unfold validateValue
  cases w with
  | dict kvs =>
    simp only
    constructor
    · intro h
      split at h
      · next ha =>
        refine ⟨kvs, rfl, fun kv hkv => ?_⟩
        exact (validContext_iff _).1 (List.all_eq_true.1 ha kv hkv)
      · cases h
    · rintro ⟨kvs', e, h⟩
      cases e
      rw [if_pos (List.all_eq_true.2 fun kv hkv => (validContext_iff _).2 (h kv hkv))]
  | _ => simp

theorem validateValue_other {n : Name} {w v : PVal} (h1 : n ≠ .frequency) (h2 : n ≠ .context) :
    validateValue (.known n) w v = .ok () ↔ AllowedOne n v := by
  rw [← validParamValue_iff h1 h2]
  unfold validateValue
  cases n <;> simp_all

theorem validateParam_ok {n : Name} {v : PVal} :
    validateParam (.known n) v = .ok () ↔ v = .none ∨ Passes n v := by
  by_cases h1 : n = .frequency
  · subst h1
    unfold validateParam
    split
    · simp
    · next vs =>
      rw [validateValues_ok]
      simp only [validateValue_freq, Passes]
      constructor
      · intro h; exact Or.inr (Or.inr ⟨vs, rfl, h⟩)
      · rintro (h | ⟨f, h, _⟩ | ⟨vs', h, h'⟩)
        · cases h
        · cases h
        · cases h; exact h'
    · next hn hl =>
      rw [validateValues_ok]
      simp only [List.mem_singleton, forall_eq, validateValue_freq, Passes]
      constructor
      · intro h; exact Or.inr (Or.inl h)
      · rintro (h | h | ⟨vs', h, _⟩)
        · exact absurd h hn
        · exact h
        · exact absurd h (hl vs')
  · by_cases h2 : n = .context
    · subst h2
      have e : Passes .context v ↔ Allowed .context v := Iff.rfl
      rw [e]
      unfold validateParam Allowed
      split
      · simp
      · next vs =>
        rw [validateValues_ok]
        simp only [validateValue_context]
        cases vs with
        | nil => simp
        | cons x xs =>
          simp only [reduceCtorEq, true_and, PVal.list.injEq, false_and, exists_false,
            imp_false, ne_eq, not_true_eq_false, or_false]
          constructor
          · intro h; exact absurd (by simp) (h x)
          · intro h; cases h
      · next hn hl =>
        rw [validateValues_ok]
        simp only [List.mem_singleton, forall_eq, validateValue_context]
        constructor
        · intro h; exact Or.inr (Or.inl ⟨trivial, Or.inl h⟩)
        · rintro (h | ⟨_, h | h⟩ | ⟨h, _⟩)
          · exact absurd h hn
          · exact h
          · exact absurd h (hl [])
          · exact absurd rfl h
    · have e : Passes n v ↔ Allowed n v := by
        unfold Passes
        cases n <;> simp_all
      rw [e]
      unfold validateParam Allowed
      split
      · simp
      · next vs =>
        rw [validateValues_ok]
        simp only [validateValue_other h1 h2]
        constructor
        · intro h; exact Or.inr (Or.inr ⟨h2, Or.inl ⟨vs, rfl, h⟩⟩)
        · rintro (h | ⟨h, _⟩ | ⟨_, ⟨vs', h, h'⟩ | ⟨h, _⟩⟩)
          · cases h
          · exact absurd h h2
          · cases h; exact h'
          · exact absurd ⟨vs, rfl⟩ h
      · next hn hl =>
        rw [validateValues_ok]
        simp only [List.mem_singleton, forall_eq, validateValue_other h1 h2]
        constructor
        · intro h
          exact Or.inr (Or.inr ⟨h2, Or.inr ⟨fun ⟨vs, e⟩ => hl vs e, h⟩⟩)
        · rintro (h | ⟨h, _⟩ | ⟨_, ⟨vs', h, h'⟩ | ⟨_, h⟩⟩)
          · exact absurd h hn
          · exact absurd h h2
          · exact absurd h (hl vs')
          · exact h

theorem validateParams_ok {d : PDict} :
    validateParams d = .ok () ↔ ∀ kv ∈ d, validateParam kv.1 kv.2 = .ok () := by
  induction d with
  | nil => simp [validateParams]
  | cons kv d ih =>
    obtain ⟨k, v⟩ := kv
    rw [validateParams]
    split
    · next e h => simp [h]
    · next h => simp [h, ih]

/-! ### Curated frequencies -/

theorem curateAll_ok {vs vs' : List PVal} :
    curateAll vs = .ok vs' ↔ ∃ ss : List Str, vs = ss.map .str ∧
      vs' = ss.map fun s => .str (freqTranslate (upper s)) := by
  induction vs generalizing vs' with
  | nil =>
    simp only [curateAll]
    constructor
    · intro h; cases h; exact ⟨[], rfl, rfl⟩
    · rintro ⟨ss, h1, h2⟩
      cases ss with
      | nil => subst h2; rfl
      | cons => simp at h1
  | cons v vs ih =>
    rw [curateAll]
    constructor
    · intro h
      obtain ⟨v', h1, h⟩ := bind_ok h
      obtain ⟨ws, h2, h⟩ := bind_ok h
      have := pure_ok h
      subst this
      obtain ⟨ss, rfl, rfl⟩ := ih.1 h2
      cases v with
      | str s => cases h1; exact ⟨s :: ss, rfl, rfl⟩
      | _ => cases h1
    · rintro ⟨ss, h1, h2⟩
      cases ss with
      | nil => simp at h1
      | cons s ss =>
        simp only [List.map_cons, List.cons.injEq] at h1
        obtain ⟨rfl, h1⟩ := h1
        have e : curateOne (.str s) = .ok (.str (freqTranslate (upper s))) := rfl
        rw [bind_intro e, bind_intro (ih.2 ⟨ss, h1, rfl⟩), h2]
        rfl

/-- A frequency as the user may write it, whatever its letters: a text or a list of texts. -/
theorem curateFreq_ok {f f' : PVal} :
    curateFreq f = .ok f' ↔
      (∃ s, f = .str s ∧ f' = .str (freqTranslate (upper s))) ∨
      ∃ ss : List Str, f = .list (ss.map .str) ∧
        f' = .list (ss.map fun s => .str (freqTranslate (upper s))) := by
  cases f with
  | str s =>
    simp only [curateFreq, curateOne]
    constructor
    · intro h; cases h; exact Or.inl ⟨s, rfl, rfl⟩
    · rintro (⟨t, h1, h2⟩ | ⟨ss, h1, _⟩)
      · cases h1; rw [h2]
      · cases h1
  | list vs =>
    simp only [curateFreq]
    constructor
    · intro h
      obtain ⟨ws, h1, h⟩ := bind_ok h
      have := pure_ok h
      subst this
      obtain ⟨ss, rfl, rfl⟩ := curateAll_ok.1 h1
      exact Or.inr ⟨ss, rfl, rfl⟩
    · rintro (⟨t, h1, _⟩ | ⟨ss, h1, h2⟩)
      · cases h1
      · cases h1
        rw [bind_intro (curateAll_ok.2 ⟨ss, rfl, rfl⟩), h2]
        rfl
  | _ => simp [curateFreq, curateOne]

/-- A curated frequency passes exactly if the given one is allowed. -/
theorem curated_passes {f f' : PVal} (h : curateFreq f = .ok f') :
    Passes .frequency f' ↔ Allowed .frequency f := by
  have one : ∀ s : Str, AllowedOne .frequency (.str s) ↔ FreqCode (freqTranslate (upper s)) := by
    intro s
    unfold AllowedOne
    constructor
    · rintro ⟨s', f, h1, h2, h3⟩
      cases h1
      rwa [← freqMeans_eq h2]
    · intro h
      exact ⟨s, _, rfl, freqTranslate_means s, h⟩
  rcases curateFreq_ok.1 h with ⟨s, rfl, rfl⟩ | ⟨ss, rfl, rfl⟩
  · unfold Passes Allowed
    simp only [one]
    constructor
    · rintro (⟨f, h1, h2⟩ | ⟨vs, h1, _⟩)
      · cases h1
        refine Or.inr ⟨by decide, Or.inr ⟨?_, h2⟩⟩
        rintro ⟨vs, h⟩; cases h
      · cases h1
    · rintro (⟨h, _⟩ | ⟨_, ⟨vs, h, _⟩ | ⟨_, h⟩⟩)
      · cases h
      · cases h
      · exact Or.inl ⟨_, rfl, h⟩
  · unfold Passes Allowed
    constructor
    · rintro (⟨f, h1, _⟩ | ⟨vs, h1, h2⟩)
      · cases h1
      · simp only [PVal.list.injEq] at h1
        subst h1
        refine Or.inr ⟨by decide, Or.inl ⟨_, rfl, ?_⟩⟩
        intro x hx
        simp only [List.mem_map] at hx
        obtain ⟨s, hs, rfl⟩ := hx
        rw [one]
        obtain ⟨f, e, hf⟩ := h2 _ (List.mem_map_of_mem hs)
        cases e
        exact hf
    · rintro (⟨h, _⟩ | ⟨_, ⟨vs, h, h'⟩ | ⟨h, _⟩⟩)
      · cases h
      · simp only [PVal.list.injEq] at h
        subst h
        refine Or.inr ⟨_, rfl, ?_⟩
        intro x hx
        simp only [List.mem_map] at hx
        obtain ⟨s, hs, rfl⟩ := hx
        exact ⟨_, rfl, (one s).1 (h' _ (List.mem_map_of_mem hs))⟩
      · exact absurd ⟨_, rfl⟩ h

namespace PDict

theorem mem_put_of_ne {d : PDict} {k k' : Key} {v v' : PVal} (h : (k, v) ∈ d) (hk : k ≠ k') :
    (k, v) ∈ d.put k' v' := by
  induction d with
  | nil => simp at h
  | cons kv d ih =>
    obtain ⟨a, b⟩ := kv
    simp only [put]
    simp only [List.mem_cons, Prod.mk.injEq] at h
    split
    · next e =>
      rcases h with ⟨rfl, rfl⟩ | h
      · exact absurd e hk
      · exact List.mem_cons_of_mem _ h
    · rcases h with ⟨rfl, rfl⟩ | h
      · simp
      · exact List.mem_cons_of_mem _ (ih h)

theorem mem_of_put {d : PDict} {k k' : Key} {v v' : PVal} (h : (k, v) ∈ d.put k' v') :
    (k, v) ∈ d ∨ (k = k' ∧ v = v') := by
  induction d with
  | nil => simp [put] at h; exact Or.inr h
  | cons kv d ih =>
    obtain ⟨a, b⟩ := kv
    simp only [put] at h
    split at h
    · simp only [List.mem_cons, Prod.mk.injEq] at h
      rcases h with ⟨rfl, rfl⟩ | h
      · exact Or.inr ⟨rfl, rfl⟩
      · exact Or.inl (List.mem_cons_of_mem _ h)
    · simp only [List.mem_cons, Prod.mk.injEq] at h
      rcases h with ⟨rfl, rfl⟩ | h
      · exact Or.inl (by simp)
      · rcases ih h with h | h
        · exact Or.inl (List.mem_cons_of_mem _ h)
        · exact Or.inr h

end PDict

theorem absent_iff (d : PDict) (n : Name) : d.absent n = true ↔ Missing d n := by
  unfold PDict.absent Missing
  cases h : d.get? n with
  | none => simp
  | some v => cases v <;> simp [PVal.isNone]

end Xls
