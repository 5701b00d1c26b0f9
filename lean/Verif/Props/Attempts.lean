/-
Property C45: all combinations of missing parameters are tried exactly once.
-/
import Verif.Lemmas.Attempts
import Verif.Spec.ScraperSamples

set_option autoImplicit false

namespace Xls

open Spec

/-- C45. If only discoverable parameters are missing, the attempts are exactly the objects with one of the
possible values for each of them, each object appears once, and the first one has the most likely value of
each. -/
theorem C45_product (p : Params) (N : Nat) (hp : GivenFor p N) (hne : p.getMissings ≠ [])
    (hd : ∀ n ∈ p.getMissings, Discoverable n) :
    ∃ qs, discoverParameters p = .ok (.new qs) ∧ qs.Nodup ∧
      (∀ q, q ∈ qs ↔ ∃ choice : Name → PVal, (∀ n ∈ p.getMissings, choice n ∈ choices n) ∧
        q = withChoice p N p.getMissings choice) ∧
      qs.head? = some (withChoice p N p.getMissings usual) := by
  have hnd := missings_nodup p
  have hlen : p.getMissings.length = (p.getMissings.length - 1) + 1 := by
    have := List.length_pos_of_ne_nil hne
    omega
  obtain ⟨cs, ns, e, hperm, hmem, hcnd, hhead⟩ := combinations_ok (p.getMissings.length - 1) p.getMissings
    likelinessOrder hlen hnd (by decide) fun m hm => ⟨(discoverable_iff m).1 (hd m hm), hd m hm⟩
  have hnsd : ns.Nodup := hperm.nodup_iff.2 hnd
  have hasg : ∀ c ∈ cs, assigned N c p = withChoice p N p.getMissings (chosen c) := by
    intro c hc
    have hc' := (hmem c).1 hc
    rw [assigned_eq c p (by rw [hc'.1]; exact hnsd), hc'.1, withChoice_perm hperm]
  have hatt : ∀ c ∈ cs, attemptOf p c = .ok (withChoice p N p.getMissings (chosen c)) := by
    intro c hc
    obtain ⟨h1, h2⟩ := assignAll_ok hp.pos c p hp.num ((hmem c).1 hc).2
    unfold attemptOf
    rw [h1]
    dsimp only
    rw [hasg c hc] at h2 ⊢
    rw [complete_withChoice hp _ h2]
  refine ⟨cs.map fun c => withChoice p N p.getMissings (chosen c), ?_, ?_, ?_, ?_⟩
  · unfold discoverParameters
    rw [not_complete hp hne]
    dsimp only
    rw [if_neg (by simpa using hne)]
    unfold generateAttempts
    rw [e]
    dsimp only
    rw [attemptsOf_ok hatt]
    rfl
  · refine (List.nodup_map_iff_inj_on hcnd).2 ?_
    intro a ha b hb hab
    have hinj := withChoice_inj hp.pos hab
    have ha' := (hmem a).1 ha
    have hb' := (hmem b).1 hb
    rw [comb_eq (c := a) (by rw [ha'.1]; exact hnsd), comb_eq (c := b) (by rw [hb'.1]; exact hnsd),
      ha'.1, hb'.1]
    refine List.map_congr_left ?_
    intro n hn
    rw [hinj n (hperm.mem_iff.1 hn)]
  · intro q
    rw [List.mem_map]
    constructor
    · rintro ⟨c, hc, rfl⟩
      refine ⟨chosen c, ?_, rfl⟩
      intro n hn
      have hc' := (hmem c).1 hc
      have := chosen_mem (c := c) (n := n) (by rw [hc'.1]; exact hperm.mem_iff.2 hn)
      exact (mem_tried n _).1 (hc'.2 _ this)
    · rintro ⟨choice, hch, rfl⟩
      refine ⟨ns.map fun n => (n, choice n), ?_, ?_⟩
      · rw [hmem]
        refine ⟨by simp [Function.comp_def], ?_⟩
        intro nv hnv
        rw [List.mem_map] at hnv
        obtain ⟨n, hn, rfl⟩ := hnv
        exact (mem_tried n _).2 (hch n (hperm.mem_iff.1 hn))
      · refine withChoice_congr ?_
        intro n hn
        exact chosen_map (hperm.mem_iff.2 hn)
  · rw [List.head?_map, hhead]
    simp only [Option.map_some, Option.some.injEq]
    refine withChoice_congr ?_
    intro n hn
    exact chosen_map (hperm.mem_iff.2 hn)

/-- One parameter is missing: two attempts. -/
example : ∃ qs, discoverParameters Sample.gapUnknown = .ok (.new qs) ∧ qs.Nodup ∧
    (∀ q, q ∈ qs ↔ ∃ choice : Name → PVal,
      (∀ n ∈ Sample.gapUnknown.getMissings, choice n ∈ choices n) ∧
      q = withChoice Sample.gapUnknown 2 Sample.gapUnknown.getMissings choice) ∧
    qs.head? = some (withChoice Sample.gapUnknown 2 Sample.gapUnknown.getMissings usual) :=
  C45_product Sample.gapUnknown 2
    ⟨rfl, by decide, by
      intro n _ _
      cases n <;> first | exact .inl rfl | exact .inr ⟨_, rfl, rfl⟩, ⟨_, rfl, by decide⟩⟩
    (by decide +kernel) (by
      intro n hn
      have h : Sample.gapUnknown.getMissings = [.missings] := by decide +kernel
      rw [h, List.mem_singleton] at hn
      subst hn
      simp [Discoverable, choices])

theorem attemptsOf_complete {p : Params} : ∀ {cs : List (List (Name × PVal))} {qs : List Params},
    attemptsOf p cs = .ok qs → ∀ q ∈ qs, q.isComplete = .ok true
  | [], qs, h => by cases h; intro q hq; cases hq
  | c :: cs, qs, h => by
    unfold attemptsOf at h
    split at h
    · cases h
    next q ha =>
      split at h
      · cases h
      next qs' hr =>
        cases h
        intro x hx
        rcases List.mem_cons.1 hx with e | e
        · rw [e]
          unfold attemptOf at ha
          split at ha
          · cases ha
          · split at ha
            · cases ha
            next hc => cases ha; exact hc
            · cases ha
        · exact attemptsOf_complete hr x e

/-- C45. Whatever was given, nothing is tried that is not complete: each of the new sets of parameters
passes `is_complete`. -/
theorem C45_only_complete (p : Params) (qs : List Params) (h : discoverParameters p = .ok (.new qs)) :
    ∀ q ∈ qs, q.isComplete = .ok true := by
  unfold discoverParameters at h
  split at h
  · cases h
  · cases h
  · split at h
    · cases h
    · unfold generateAttempts at h
      split at h
      · cases h
      next cs _ =>
        cases ha : attemptsOf p cs with
        | error e => rw [ha] at h; cases h
        | ok qs' =>
          rw [ha] at h
          cases h
          exact attemptsOf_complete ha

example : ∀ q ∈ [Sample.gapTable false, Sample.gapTable true], q.isComplete = .ok true := by
  have h : ∀ b, Sample.gapUnknown.store .missings (.list [.bool b, .bool b]) = Sample.gapTable b := by
    intro b
    funext n
    unfold Params.store Sample.gapUnknown
    cases n <;> rfl
  refine C45_only_complete Sample.gapUnknown _ ?_
  rw [← h false, ← h true]
  rfl

theorem combinations_error : ∀ (k : Nat) (ms order : List Name), ms.length = k + 1 →
    (∃ m ∈ ms, defaultValue m = none) → ∃ e, combinations k ms order = .error e
  | 0, ms, order, hlen, hex => by
    obtain ⟨n, rfl⟩ := List.length_eq_one_iff.1 hlen
    obtain ⟨m, hm, hdm⟩ := hex
    rw [List.mem_singleton] at hm
    subst hm
    unfold combinations
    dsimp only
    cases hv : valuesToTry m with
    | error e => exact ⟨e, rfl⟩
    | ok vs =>
      refine ⟨.keyError, ?_⟩
      dsimp only [Bind.bind, Except.bind]
      unfold defaultFirst defaultOf
      rw [hdm]
  | k + 1, ms, order, hlen, hex => by
    unfold combinations
    cases hn : nextName ms order with
    | error e => exact ⟨e, rfl⟩
    | ok no =>
      obtain ⟨n, order'⟩ := no
      dsimp only [Bind.bind, Except.bind]
      cases hv : valuesToTry n with
      | error e => exact ⟨e, rfl⟩
      | ok vs =>
        dsimp only
        cases hc : combinations k (ms.erase n) order' with
        | error e => exact ⟨e, rfl⟩
        | ok inner =>
          dsimp only
          by_cases hdn : defaultValue n = none
          · refine ⟨.keyError, ?_⟩
            unfold defaultFirst defaultOf
            rw [hdn]
          · exfalso
            have hmem : n ∈ ms := by
              have hpop : ∀ (l : List Name) (r : Name × List Name), popFront ms l = .ok r → r.1 ∈ ms := by
                intro l
                induction l with
                | nil => intro r h; cases h
                | cons x xs ih =>
                  intro r h
                  unfold popFront at h
                  split at h
                  next hx => cases h; exact hx
                  next => exact ih r h
              unfold nextName at hn
              split at hn
              · split at hn
                · cases hn
                next hl => cases hn; exact List.mem_of_getLast? hl
              · split at hn
                next hx => cases hn; exact hx
                next => exact hpop _ _ hn
            obtain ⟨m, hm, hdm⟩ := hex
            have hne : m ≠ n := by rintro rfl; exact hdn hdm
            obtain ⟨e, he⟩ := combinations_error k (ms.erase n) order'
              (by rw [List.length_erase_of_mem hmem]; omega)
              ⟨m, (List.mem_erase_of_ne hne).2 hm, hdm⟩
            rw [he] at hc
            cases hc

/-- C45. If a parameter without which nothing can be read is missing, no attempt is made: the call raises. -/
theorem C45_critical (p : Params) (n : Name) (hn : n ∈ critical) (hm : p n = .none) :
    ∃ e, discoverParameters p = .error e := by
  have hmem : n ∈ p.getMissings := by
    unfold Params.getMissings Params.isMissing
    rw [List.mem_filter, hm]
    exact ⟨Name.mem_all n, by revert hn; cases n <;> decide⟩
  have hdef : defaultValue n = none := by
    revert hn
    cases n <;> first | (intro _; rfl) | (intro h; exact absurd h (by decide))
  unfold discoverParameters
  cases hc : p.isComplete with
  | error e => exact ⟨e, rfl⟩
  | ok b =>
    cases b with
    | true =>
      exfalso
      unfold Params.isComplete at hc
      rw [completeFrom_true] at hc
      have := hc n (Name.mem_all n)
      unfold Params.completeAt at this
      rw [if_neg (by revert hn; cases n <;> decide), hm] at this
      cases this
    | false =>
      dsimp only
      rw [if_neg (by intro h; rw [List.isEmpty_iff] at h; rw [h] at hmem; cases hmem)]
      obtain ⟨e, he⟩ := combinations_error (p.getMissings.length - 1) p.getMissings likelinessOrder
        (by have := List.length_pos_of_mem hmem; omega) ⟨n, hmem, hdef⟩
      refine ⟨e, ?_⟩
      unfold generateAttempts
      rw [he]
      rfl

example : ∃ e, discoverParameters (Sample.table.store .frequency .none) = .error e :=
  C45_critical _ .frequency (by decide) rfl

end Xls
