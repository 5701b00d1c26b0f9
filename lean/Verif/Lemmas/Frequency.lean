/-
Lemmas on the cycle of frequencies and on cleaning an index of several frequencies.
-/
import Verif.Lemmas.CleanMisc
import Verif.Spec.Frequency

set_option autoImplicit false

namespace Xls
open Spec

theorem stripPrefix_append (a b : Str) : stripPrefix? a (a ++ b) = some b := by
  induction a with
  | nil => rfl
  | cons x xs ih => simp [stripPrefix?, ih]

theorem partitionAfter_prefix {a b : Str} (ha : a ≠ []) : partitionAfter a (a ++ b) = b := by
  cases a with
  | nil => exact absurd rfl ha
  | cons x xs =>
    have := stripPrefix_append (x :: xs) b
    rw [List.cons_append] at this ⊢
    unfold partitionAfter
    rw [this]

/-- The part of the cycle consumed after `k` periods. -/
def consumed (pattern : Str) : Nat → Str
  | 0 => []
  | k + 1 => pattern.take (k % pattern.length + 1)

theorem consumed_succ (pattern : Str) (k : Nat) :
    consumed pattern (k + 1) = pattern.take (k % pattern.length + 1) := rfl

theorem nextFrequency_consumed {pattern : Str} (hp : pattern ≠ []) (k : Nat) :
    ∃ c, letterAt pattern k = some c ∧
      nextFrequency pattern (consumed pattern k) = .ok (c, consumed pattern (k + 1)) := by
  have hn : 0 < pattern.length := by
    cases pattern with
    | nil => exact absurd rfl hp
    | cons _ _ => simp
  have hlt : k % pattern.length < pattern.length := Nat.mod_lt _ hn
  refine ⟨pattern[k % pattern.length], by unfold letterAt; rw [List.getElem?_eq_getElem hlt], ?_⟩
  unfold nextFrequency
  by_cases h0 : k % pattern.length = 0
  · have hcons : consumed pattern k = [] ∨ consumed pattern k = pattern := by
      cases k with
      | zero => exact .inl rfl
      | succ j =>
        right
        unfold consumed
        apply List.take_of_length_le
        have h1 : (j % pattern.length + 1) % pattern.length = 0 := by
          rw [Nat.add_mod] at h0
          rw [Nat.add_mod, Nat.mod_mod]; exact h0
        have h2 := Nat.dvd_of_mod_eq_zero h1
        exact Nat.le_of_dvd (by omega) h2
    rw [if_pos hcons]
    cases pattern with
    | nil => exact absurd rfl hp
    | cons x xs =>
      simp only [consumed, h0]
      simp
  · cases k with
    | zero => simp at h0
    | succ j =>
      have hj : j % pattern.length + 1 = (j + 1) % pattern.length := by
        have hlt' : j % pattern.length < pattern.length := Nat.mod_lt _ hn
        have h1 : (j + 1) % pattern.length = (j % pattern.length + 1) % pattern.length := by
          simp [Nat.add_mod]
        by_cases hx : j % pattern.length + 1 = pattern.length
        · rw [hx, Nat.mod_self] at h1; exact absurd h1 h0
        · rw [h1, Nat.mod_eq_of_lt (a := j % pattern.length + 1) (by omega)]
      have hne : ¬ (consumed pattern (j + 1) = [] ∨ consumed pattern (j + 1) = pattern) := by
        rw [consumed_succ, hj]
        rintro (h | h)
        · have := congrArg List.length h
          simp only [List.length_take, List.length_nil] at this
          omega
        · have := congrArg List.length h
          simp only [List.length_take] at this
          omega
      rw [if_neg hne]
      have hsplit : pattern = consumed pattern (j + 1) ++ pattern.drop ((j + 1) % pattern.length) := by
        rw [consumed_succ, hj]; exact (List.take_append_drop _ _).symm
      have hpart : partitionAfter (consumed pattern (j + 1)) pattern =
          pattern.drop ((j + 1) % pattern.length) := by
        conv => lhs; arg 2; rw [hsplit]
        exact partitionAfter_prefix fun h => hne (.inl h)
      rw [hpart]
      rw [List.drop_eq_getElem_cons hlt]
      simp only
      congr 2
      show consumed pattern (j + 1) ++ _ = pattern.take ((j + 1) % pattern.length + 1)
      rw [consumed_succ, hj, List.take_succ_eq_append_getElem hlt]

theorem mfGet_set (m : List (Char × Time)) (c d : Char) (t : Time) :
    mfGet (mfSet m c t) d = if d = c then some t else mfGet m d := by
  unfold mfGet mfSet
  by_cases h : d = c
  · subst h; simp
  · rw [if_neg h, List.find?_cons_of_neg (by simpa using fun x => h x.symm)]
    congr 1
    induction m with
    | nil => rfl
    | cons p ps ih =>
      by_cases hp : p.1 = c
      · rw [List.filter_cons_of_neg (by simpa using hp), ih,
          List.find?_cons_of_neg (by simp only [hp, beq_iff_eq]; exact fun x => h x.symm)]
      · rw [List.filter_cons_of_pos (by simpa using hp)]
        by_cases hd : p.1 = d
        · rw [List.find?_cons_of_pos (by simpa using hd), List.find?_cons_of_pos (by simpa using hd)]
        · rw [List.find?_cons_of_neg (by simpa using hd), List.find?_cons_of_neg (by simpa using hd), ih]

theorem ofLetter_snoc {α : Type} (pattern : Str) (c : Char) (xs : List α) (x : α) :
    ofLetter pattern c (xs ++ [x]) =
      ofLetter pattern c xs ++ if letterAt pattern xs.length = some c then [x] else [] := by
  unfold ofLetter
  rw [List.zipIdx_append, List.filter_append, List.map_append]
  congr 1
  simp only [List.zipIdx_singleton, Nat.zero_add]
  split <;> simp [*]

theorem Spec.ConsecutiveOrSame.snoc {f : Str} {l t : Time} : ∀ {ts : List Time},
    ConsecutiveOrSame f ts → ts.getLast? = some l → (NextPeriod f l t ∨ t = l) →
    ConsecutiveOrSame f (ts ++ [t])
  | [], _, h, _ => by cases h
  | [a], _, h, h' => by
    simp at h; subst h; exact ⟨h', trivial⟩
  | a :: b :: rest, hc, h, h' =>
    ⟨hc.1, Spec.ConsecutiveOrSame.snoc (ts := b :: rest) hc.2 (by simpa using h) h'⟩

/-- State and sheet of a loop over an index of several frequencies. -/
theorem steps_multi {ext : Ext} {sp : SParams} {s st' s' : _} {p q hr hc : Int}
    (he : ExtValid ext) (hsv : SheetValid s) (hf : 1 < sp.frequency.length)
    (hi : isImplicitStr sp.missingValue = false)
    (hh : timeHeaderCell sp.timeHeader = .ok (hr, hc)) (h : Steps ext sp .init s p st' s' q) :
    let ts := indexTimes s' sp.alignment hr hc p q
    st'.mfFreq = consumed sp.frequency ts.length ∧
    (∀ c, mfGet st'.mfLast c = (ofLetter sp.frequency c ts).getLast?) ∧
    (∀ c, (ofLetter sp.frequency c ts).Pairwise (¬ · > ·)) ∧
    (sp.missings = false → ∀ c, ConsecutiveOrSame [c] (ofLetter sp.frequency c ts)) := by
  generalize hst0 : CState.init = st at h
  induction h with
  | refl =>
    subst hst0
    simp only
    rw [indexTimes_empty _ _ _ _ (Int.le_refl _)]
    exact ⟨rfl, fun c => rfl, fun c => List.Pairwise.nil, fun _ c => trivial⟩
  | @tail st1 s1 q st2 s2 h hs ih =>
    subst hst0
    obtain ⟨i1, i2, i3, i4⟩ := ih
    have hval := steps_valid he hsv h (by simp [CState.init]) (by simp [CState.init, mfGet])
    rcases step_indexTimes hh h.le hs with ⟨t0, t, pr, st', _, _, corr, _, hst, hd⟩ | ⟨_, h1, h2, h3⟩
    · simp only
      rw [hd]
      generalize indexTimes s1 sp.alignment hr hc p q = ts at *
      unfold correctStep at corr
      rw [if_neg (by omega)] at corr
      obtain ⟨c, hc1, hc2⟩ := nextFrequency_consumed (pattern := sp.frequency)
        (by intro hx; rw [hx] at hf; simp at hf) ts.length
      simp only [i1, hc2] at corr
      split at corr
      · cases corr
      · cases corr
      · next u hcp =>
        injection corr with corr; injection corr with c1 c2
        injection c1 with c1; subst c1; subst c2; subst hst
        have hlen : (ts ++ [u]).length = ts.length + 1 := by simp
        have hrel : ∀ l, (ofLetter sp.frequency c ts).getLast? = some l →
            ¬ u < l ∧ (sp.missings = false → NextPeriod [c] l u ∨ u = l) := by
          intro l hl
          rw [← i2] at hl
          have hvl := hval.2.2 c l hl
          rw [hl] at hcp
          obtain ⟨t', ht', hnlt, hor⟩ := correctProgression_ok hvl hi hcp
          injection ht' with ht'; subst ht'
          refine ⟨hnlt, fun hm => ?_⟩
          rcases hor with hinc | ⟨_, hx | hx⟩
          · left
            obtain ⟨sh, a, a', b⟩ := incrementTime_ok hvl hinc
            exact ⟨a', sh, a, b⟩
          · rw [hm] at hx; cases hx
          · exact .inr hx
        refine ⟨by rw [hlen], ?_, ?_, ?_⟩
        · intro d
          simp only
          rw [mfGet_set, ofLetter_snoc, hc1, i2]
          by_cases hdc : d = c
          · subst hdc; simp
          · rw [if_neg hdc, if_neg (by intro hx; injection hx with hx; exact hdc hx.symm)]; simp
        · intro d
          rw [ofLetter_snoc, hc1]
          by_cases hdc : d = c
          · subst hdc
            rw [if_pos rfl, List.pairwise_append]
            refine ⟨i3 d, List.pairwise_singleton _ _, ?_⟩
            intro a ha b hb
            simp only [List.mem_singleton] at hb; subst hb
            cases hl : (ofLetter sp.frequency d ts).getLast? with
            | none => rw [List.getLast?_eq_none_iff] at hl; rw [hl] at ha; cases ha
            | some l =>
              have h1 := (hrel l hl).1
              have h2 : ¬ (a > l) := by
                obtain ⟨ys, hys⟩ : ∃ ys, ofLetter sp.frequency d ts = ys ++ [l] := by
                  rw [List.getLast?_eq_some_iff] at hl; exact hl
                have hpw := i3 d
                rw [hys, List.pairwise_append] at hpw
                rw [hys] at ha
                rcases List.mem_append.mp ha with hm | hm
                · exact hpw.2.2 a hm l (by simp)
                · simp at hm; subst hm; exact Time.lt_irrefl a
              intro hx
              rcases (Time.not_lt_iff _ _).mp h1 with h3 | h3
              · subst h3; exact h2 hx
              · exact h2 (Time.lt_trans h3 hx)
          · rw [if_neg (by intro hx; injection hx with hx; exact hdc hx.symm)]; simpa using i3 d
        · intro hm d
          rw [ofLetter_snoc, hc1]
          by_cases hdc : d = c
          · subst hdc
            rw [if_pos rfl]
            cases hl : (ofLetter sp.frequency d ts).getLast? with
            | none => rw [List.getLast?_eq_none_iff] at hl; rw [hl]; exact trivial
            | some l => exact Spec.ConsecutiveOrSame.snoc (i4 hm d) hl ((hrel l hl).2 hm)
          · rw [if_neg (by intro hx; injection hx with hx; exact hdc hx.symm)]; simpa using i4 hm d
    · simp only
      rw [h3, h1, h2]; exact ⟨i1, i2, i3, i4⟩

end Xls
