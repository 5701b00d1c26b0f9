/-
Which exceptions the steps of a build do not raise.
-/
import Verif.Lemmas.Build

set_option autoImplicit false

namespace Xls

/-- The error is neither `CriticalParameterMissing` nor `InvalidParameter`. -/
def Foreign (e : Err) : Bool := e ≠ .criticalParameterMissing && e ≠ .invalidParameter

/-- A computation that raises neither `CriticalParameterMissing` nor `InvalidParameter`. -/
structure Mild {α : Type} (x : Except Err α) : Prop where
  out : ∀ e, x = .error e → Foreign e = true

theorem mild_ok {α : Type} (a : α) : Mild (.ok a : Except Err α) := by
  constructor; intro e h; cases h

theorem mild_pure {α : Type} (a : α) : Mild (pure a : Except Err α) := mild_ok a

theorem mild_error {α : Type} {e : Err} (h : Foreign e = true) :
    Mild (.error e : Except Err α) := by
  constructor; intro e' h'; cases h'; exact h

theorem mild_throw {α : Type} {e : Err} (h : Foreign e = true) :
    Mild (throw e : Except Err α) := mild_error h

theorem mild_bind {α β : Type} {x : Except Err α} {f : α → Except Err β} (hx : Mild x)
    (hf : ∀ a, Mild (f a)) : Mild (x >>= f) := by
  constructor
  intro e h
  cases x with
  | error e' => cases h; exact hx.out _ rfl
  | ok a => exact (hf a).out e h

/-- Solve goals `Mild ...` by going through the structure of a computation. -/
macro "mild" : tactic =>
  `(tactic| repeat' (first
    | exact mild_ok _
    | exact mild_pure _
    | exact mild_error rfl
    | exact mild_throw rfl
    | assumption
    | split))

theorem mild_match {α β : Type} {x : Except Err α} {f : α → Except Err β} (hx : Mild x)
    (hf : ∀ a, Mild (f a)) :
    Mild (match x with
      | .error e => .error e
      | .ok a => f a) := by
  cases x with
  | error e => exact mild_error (hx.out e rfl)
  | ok a => exact hf a

theorem mild_get (d : PDict) (n : Name) : Mild (d.get n) := by
  unfold PDict.get; mild

theorem mild_coordOf (s : Str) : Mild (coordOf s) := by
  unfold coordOf
  split
  · exact mild_ok _
  · refine mild_error ?_
    unfold coordError
    dsimp only
    split
    · split <;> rfl
    · rfl

theorem mild_cellOf (v : PVal) : Mild (cellOf v) := by
  unfold cellOf
  split
  · exact mild_coordOf _
  all_goals exact mild_error rfl

theorem mild_cellsOf (vs : List PVal) : Mild (cellsOf vs) := by
  induction vs with
  | nil => exact mild_ok _
  | cons v vs ih =>
    exact mild_bind (mild_cellOf v) fun _ => mild_bind ih fun _ => mild_pure _

theorem mild_consecutiveFrom (st : RunState) (vs : List PVal) : Mild (consecutiveFrom st vs) := by
  induction vs generalizing st with
  | nil => exact mild_ok _
  | cons v vs ih =>
    rw [consecutiveFrom]
    have := mild_cellOf v
    split
    · next e h => exact mild_error (this.out e h)
    · split
      · exact mild_ok _
      · exact ih _

theorem mild_consecutiveCells (vs : List PVal) : Mild (consecutiveCells vs) := by
  unfold consecutiveCells
  split
  · exact mild_ok _
  · next v vs =>
    have := mild_cellOf v
    split
    · next e h => exact mild_error (this.out e h)
    · exact mild_consecutiveFrom _ _

theorem mild_coordInScope (v : PVal) (vs : List PVal) : Mild (coordInScope v vs) := by
  unfold coordInScope
  split
  · exact mild_throw rfl
  · refine mild_bind (mild_cellsOf _) fun cs => ?_
    split
    · exact mild_throw rfl
    · split
      · exact mild_bind (mild_cellOf _) fun _ => mild_pure _
      · split
        · exact mild_bind (mild_cellOf _) fun _ => mild_pure _
        · exact mild_throw rfl

theorem mild_coordRange (a b : Str) : Mild (coordRange a b) := by
  unfold coordRange; mild

theorem mild_coordRanges (xs : List (Str × Str)) : Mild (coordRanges xs) := by
  induction xs with
  | nil => exact mild_ok _
  | cons x xs ih =>
    exact mild_bind (mild_coordRange _ _) fun _ => mild_bind ih fun _ => mild_pure _

theorem mild_unpackStr (s : Str) : Mild (unpackStr s) := by
  unfold unpackStr
  split
  · exact mild_ok _
  · split
    · split
      · exact mild_coordRange _ _
      · split
        · exact mild_bind (mild_coordRanges _) fun _ => mild_pure _
        · exact mild_error rfl
    · exact mild_error rfl

mutual

theorem mild_unpackGen : ∀ v : PVal, Mild (unpackGen v)
  | .str s => by rw [unpackGen]; exact mild_bind (mild_unpackStr s) fun _ => mild_pure _
  | .list vs => by rw [unpackGen]; exact mild_unpackElems vs
  | .none => by rw [unpackGen] <;> first | exact mild_ok _ | (intros; contradiction)
  | .bool _ => by rw [unpackGen] <;> first | exact mild_ok _ | (intros; contradiction)
  | .int _ => by rw [unpackGen] <;> first | exact mild_ok _ | (intros; contradiction)
  | .float _ => by rw [unpackGen] <;> first | exact mild_ok _ | (intros; contradiction)
  | .dict _ => by rw [unpackGen] <;> first | exact mild_ok _ | (intros; contradiction)

theorem mild_unpackElems : ∀ vs : List PVal, Mild (unpackElems vs)
  | [] => by rw [unpackElems]; exact mild_ok _
  | v :: vs => by
    have h1 := mild_unpackElems vs
    have h2 := mild_unpackGen v
    cases v with
    | list ws =>
      rw [unpackElems]
      rw [unpackGen] at h2
      exact mild_bind h2 fun _ => mild_bind h1 fun _ => mild_pure _
    | _ =>
      rw [unpackElems]
      · exact mild_bind h2 fun _ => mild_bind h1 fun _ => mild_pure _
      · intro ws h; cases h

end

theorem mild_unpackRanges (v : PVal) : Mild (unpackRanges v) := by
  unfold unpackRanges
  split
  · split
    · exact mild_ok _
    · exact mild_bind (mild_unpackGen _) fun _ => mild_pure _
  · exact mild_ok _
  · exact mild_bind (mild_unpackGen _) fun _ => mild_pure _
  · split
    · exact mild_ok _
    · exact mild_error rfl
  · split
    · exact mild_error rfl
    · exact mild_ok _

theorem mild_separateOne (v : PVal) : Mild (separateOne v) := by
  unfold separateOne; mild

theorem mild_separateAll (vs : List PVal) : Mild (separateAll vs) := by
  induction vs with
  | nil => exact mild_ok _
  | cons v vs ih =>
    exact mild_bind (mild_separateOne v) fun _ => mild_bind ih fun _ => mild_pure _

theorem mild_processHeaders (v : PVal) : Mild (processHeaders v) := by
  unfold processHeaders
  refine mild_bind (mild_unpackRanges v) fun u => ?_
  split
  · exact mild_separateAll _
  · exact mild_throw rfl

theorem mild_unpackContext (kvs : List (Str × PVal)) : Mild (unpackContext kvs) := by
  induction kvs with
  | nil => exact mild_ok _
  | cons kv kvs ih =>
    refine mild_bind (mild_unpackRanges _) fun u => mild_bind ih fun us => ?_
    split
    · exact mild_pure _
    · exact mild_throw rfl

theorem mild_contextOf (h : PVal) (o : List (Str × List PVal)) : Mild (contextOf h o) := by
  induction o with
  | nil => exact mild_ok _
  | cons x o ih =>
    exact mild_bind (mild_coordInScope _ _) fun _ => mild_bind ih fun _ => mild_pure _

theorem mild_contextsOf (o : List (Str × List PVal)) (hs : List PVal) : Mild (contextsOf o hs) := by
  induction hs with
  | nil => exact mild_ok _
  | cons x hs ih =>
    exact mild_bind (mild_contextOf _ _) fun _ => mild_bind ih fun _ => mild_pure _

theorem mild_processContext (c h : PVal) : Mild (processContext c h) := by
  unfold processContext
  split
  · refine mild_bind (mild_unpackContext _) fun us => ?_
    split
    · exact mild_bind (mild_contextsOf _ _) fun _ => mild_pure _
    · exact mild_throw rfl
  · exact mild_error rfl

theorem mild_firstOrSelf (v : PVal) : Mild (firstOrSelf v) := by
  unfold firstOrSelf; mild

theorem mild_assertAfter (v : PVal) (xs : List Int) : Mild (assertAfter v xs) := by
  unfold assertAfter
  split
  · exact mild_error rfl
  · next x _ =>
    have : Mild (gtInt v x) := by unfold gtInt; mild
    split
    · next e h => exact mild_error (this.out e h)
    · split
      · exact mild_ok _
      · exact mild_error rfl

theorem mild_assertIf (b : Bool) (v : PVal) (xs : List Int) : Mild (assertIf b v xs) := by
  unfold assertIf
  split
  · exact mild_assertAfter _ _
  · exact mild_ok _

theorem mild_checkConsistency (v : PVal) (hs : List PVal) (a : Option PVal) :
    Mild (checkConsistency v hs a) :=
  mild_bind (mild_firstOrSelf _) fun _ => mild_bind (mild_cellsOf _) fun _ =>
    mild_bind (mild_assertIf _ _ _) fun _ => mild_assertIf _ _ _

theorem mild_guessMulticolumn (v : PVal) (n : Option Nat) : Mild (guessMulticolumn v n) := by
  unfold guessMulticolumn
  have : Mild (commonEntry v) := by unfold commonEntry; mild
  split
  · next e h => exact mild_error (this.out e h)
  · split
    · exact mild_ok _
    · exact mild_consecutiveCells _
  · exact mild_ok _

theorem mild_guessAlignment (hs : List PVal) : Mild (guessAlignment hs) := by
  unfold guessAlignment
  split
  · exact mild_ok _
  · have : Mild (if hs.length < 4 then consecutiveCells hs else .ok true) := by
      split
      · exact mild_consecutiveCells _
      · exact mild_ok _
    split
    · next e h => exact mild_error (this.out e h)
    · exact mild_ok _
    · have := mild_cellsOf hs
      split
      · next e h => exact mild_error (this.out e h)
      · exact mild_ok _

theorem mild_repeatFor (v : PVal) (n : Option Nat) : Mild (repeatFor v n) := by
  unfold repeatFor; mild

theorem mild_applyToAll (name : Name) (v : PVal) (n : Option Nat) (m : PVal) :
    Mild (applyToAll name v n m) := by
  have hm := mild_firstOrSelf m
  unfold applyToAll
  split
  · unfold applyTimeHeader
    split
    · exact mild_error rfl
    · split
      · exact mild_ok _
      · exact mild_error rfl
    · split
      · next e h => exact mild_error (hm.out e h)
      · split
        · exact mild_repeatFor _ _
        · exact mild_ok _
    · split
      · next e h => exact mild_error (hm.out e h)
      · exact mild_ok _
  · unfold applyMissingValue
    split
    · split
      · exact mild_ok _
      · exact mild_error rfl
    · exact mild_repeatFor _ _
    · exact mild_repeatFor _ _
  · exact mild_ok _

theorem mild_applyEach (n : Option Nat) (m : PVal) (d : PDict) : Mild (applyEach n m d) := by
  induction d with
  | nil => exact mild_ok _
  | cons kv d ih =>
    obtain ⟨k, v⟩ := kv
    cases k with
    | unknown s => exact mild_error rfl
    | known name =>
      exact mild_bind (mild_applyToAll _ _ _ _) fun _ => mild_bind ih fun _ => mild_pure _

theorem mild_buildHeaders (d : PDict) : Mild (buildHeaders d) := by
  unfold buildHeaders
  refine mild_bind (mild_get _ _) fun hc => mild_bind (mild_processHeaders _) fun ps =>
    mild_bind (mild_get _ _) fun thc => mild_bind (mild_unpackRanges _) fun thc' => ?_
  dsimp only
  split <;> split
  any_goals exact mild_pure _
  all_goals exact mild_bind (mild_get _ _) fun _ => mild_bind (mild_processContext _ _) fun _ =>
      mild_pure _

theorem mild_buildGuesses (d : PDict) : Mild (buildGuesses d) := by
  unfold buildGuesses
  refine mild_bind (mild_get _ _) fun _ => mild_bind (mild_get _ _) fun _ => ?_
  split
  · refine mild_bind (mild_checkConsistency _ _ _) fun _ => mild_bind ?_ fun d' => ?_
    · unfold guessMultiStep
      split
      · exact mild_bind (mild_get _ _) fun _ => mild_bind (mild_guessMulticolumn _ _) fun _ =>
          mild_pure _
      · exact mild_ok _
    · unfold guessAlignStep
      split
      · exact mild_bind (mild_guessAlignment _) fun _ => mild_pure _
      · exact mild_ok _
  · exact mild_throw rfl

/-- After the first part of the build neither error is raised. -/
theorem build_error {d : PDict} {e : Err} (h : build d = .error e) (hf : Foreign e = false) :
    buildCurated d = .error e := by
  unfold build at h
  cases h1 : buildCurated d with
  | error e' => rw [h1] at h; cases h; rfl
  | ok d1 =>
    rw [h1] at h
    have : Mild (do
      let d ← buildHeaders d1
      let n := numSeries d
      let d ← buildGuesses d
      let multi ← d.get .timeMulticolumn
      let d ← applyEach n multi d
      return applyOptional n d) := by
      refine mild_bind (mild_buildHeaders _) fun d2 => mild_bind (mild_buildGuesses _) fun d3 =>
        mild_bind (mild_get _ _) fun m => mild_bind (mild_applyEach _ _ _) fun d4 => mild_pure _
    have := this.out e h
    rw [hf] at this
    cases this

/-! ### Validation raises InvalidParameter, KeyError or nothing -/

theorem mild_curateAll (vs : List PVal) : Mild (curateAll vs) := by
  induction vs with
  | nil => exact mild_ok _
  | cons v vs ih =>
    refine mild_bind ?_ fun _ => mild_bind ih fun _ => mild_pure _
    unfold curateOne; mild

theorem mild_curateFreq (v : PVal) : Mild (curateFreq v) := by
  unfold curateFreq
  split
  · exact mild_bind (mild_curateAll _) fun _ => mild_pure _
  · unfold curateOne; mild

theorem validateValue_error {k : Key} {w v : PVal} {e : Err} (h : validateValue k w v = .error e) :
    e = .invalidParameter ∨ e = .keyError ∧ (∃ s, k = .unknown s) ∨
      e = .typeError ∧ k = .known .frequency := by
  unfold validateValue at h
  split at h
  · split at h
    · next e' h' =>
      unfold validFreq at h'
      split at h'
      · cases h'
      · cases h'; cases h; exact Or.inr (Or.inr ⟨rfl, rfl⟩)
    · split at h
      · cases h
      · cases h; exact Or.inl rfl
  · split at h
    · split at h
      · cases h
      · cases h; exact Or.inl rfl
    · cases h; exact Or.inl rfl
  · split at h
    · cases h
    · cases h; exact Or.inl rfl
  · cases h; exact Or.inr (Or.inl ⟨rfl, _, rfl⟩)

theorem validateValues_error {k : Key} {w : PVal} {vs : List PVal} {e : Err}
    (h : validateValues k w vs = .error e) :
    e = .invalidParameter ∨ e = .keyError ∧ (∃ s, k = .unknown s) ∨
      e = .typeError ∧ k = .known .frequency := by
  induction vs with
  | nil => cases h
  | cons v vs ih =>
    rw [validateValues] at h
    split at h
    · next e' h' => cases h; exact validateValue_error h'
    · exact ih h

theorem validateParam_error {k : Key} {v : PVal} {e : Err} (h : validateParam k v = .error e) :
    e = .invalidParameter ∨ e = .keyError ∧ (∃ s, k = .unknown s) ∨
      e = .typeError ∧ k = .known .frequency := by
  unfold validateParam at h
  split at h
  · cases h
  · exact validateValues_error h
  · exact validateValues_error h

theorem validateParams_error {d : PDict} {e : Err} (h : validateParams d = .error e) :
    e = .invalidParameter ∨ e = .keyError ∧ (∃ s v, (Key.unknown s, v) ∈ d) ∨
      e = .typeError := by
  induction d with
  | nil => cases h
  | cons kv d ih =>
    obtain ⟨k, v⟩ := kv
    rw [validateParams] at h
    split at h
    · next e' h' =>
      cases h
      rcases validateParam_error h' with h | ⟨h, s, rfl⟩ | ⟨h, _⟩
      · exact Or.inl h
      · exact Or.inr (Or.inl ⟨h, s, v, by simp⟩)
      · exact Or.inr (Or.inr h)
    · rcases ih h with h | ⟨h, s, w, hm⟩ | h
      · exact Or.inl h
      · exact Or.inr (Or.inl ⟨h, s, w, List.mem_cons_of_mem _ hm⟩)
      · exact Or.inr (Or.inr h)

/-! ### Critical parameters -/

theorem checkHasCritical_iff (d : PDict) (ns : List Name)
    (hn : ∀ n ∈ ns, hasNone (validValues n) = false) :
    (checkHasCritical d ns = .error .criticalParameterMissing ↔ ∃ n ∈ ns, d.absent n = true) ∧
    (checkHasCritical d ns = .ok () ↔ ∀ n ∈ ns, d.absent n = false) := by
  induction ns with
  | nil => simp [checkHasCritical]
  | cons n ns ih =>
    obtain ⟨i1, i2⟩ := ih fun m hm => hn m (by simp [hm])
    have h1 := hn n (by simp)
    rw [checkHasCritical]
    cases hg : d.get? n with
    | none =>
      have : d.absent n = true := by simp [PDict.absent, hg]
      simp [this]
    | some v =>
      simp only [h1, Bool.not_false, Bool.and_true]
      cases hv : v.isNone with
      | true =>
        have : d.absent n = true := by simp [PDict.absent, hg, hv]
        simp [this]
      | false =>
        have : d.absent n = false := by simp [PDict.absent, hg, hv]
        simp only [Bool.false_eq_true, if_false, i1, i2]
        simp [this]

end Xls
