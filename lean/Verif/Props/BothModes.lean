/-
C119: a call in safe mode and the same call without it.
-/
import Verif.Props.SafeMode
import Verif.Props.Remembered

set_option autoImplicit false

namespace Xls

open Spec

theorem attemptLoop_modes (ext : Ext) (ws : Nat) : ∀ (prs : List Nat) (w : World),
    (attemptLoop ext false ws prs w).1 = (attemptLoop ext true ws prs w).1.take 1
  | [], _ => rfl
  | pr :: prs, w => by
    rw [attemptLoop, attemptLoop]
    dsimp only
    split
    · exact attemptLoop_modes ext ws prs _
    · rfl

theorem removeDuplicates_prefix : ∀ (rs unique us : List (Dfs × Nat)), removeDuplicates unique rs = .ok us →
    unique <+: us
  | [], unique, us, h => by
    rw [removeDuplicates] at h
    cases h
    exact List.prefix_refl _
  | r :: rs, unique, us, h => by
    rw [removeDuplicates] at h
    split at h
    · cases h
    · exact removeDuplicates_prefix rs _ _ h
    · exact (List.prefix_append unique [r]).trans (removeDuplicates_prefix rs _ _ h)

theorem scraperFrames_modes (ext : Ext) (ws pr : Nat) (w : World) :
    (∀ e, (scraperFrames ext ws pr false w).1 = .error e → (scraperFrames ext ws pr true w).1 = .error e) ∧
    ∀ a q, (scraperFrames ext ws pr true w).1 = .ok (a, q) → ∃ d q', a.results.head? = some d ∧
      (scraperFrames ext ws pr false w).1 = .ok (.dfs d, q') := by
  unfold scraperFrames
  cases discoverParameters (w.params pr) with
  | error e => exact ⟨fun _ h => h, fun _ _ h => by cases h⟩
  | ok x =>
    cases x with
    | same =>
      dsimp only
      rcases runOn ext ws pr w with ⟨_ | fs, w'⟩
      · exact ⟨fun _ h => h, fun _ _ h => by cases h⟩
      · exact ⟨fun _ h => (by cases h), fun _ _ h => by cases h; exact ⟨_, _, rfl, rfl⟩⟩
    | new ps =>
      dsimp only
      obtain ⟨⟨prs, w'⟩, hres⟩ : ∃ res, w.newParamsAll ps = res := ⟨_, rfl⟩
      rw [hres]
      have hloop := attemptLoop_modes ext ws prs w'
      revert hloop
      obtain ⟨⟨rf, wf⟩, hf⟩ : ∃ res, attemptLoop ext false ws prs w' = res := ⟨_, rfl⟩
      obtain ⟨⟨rt, wt⟩, ht⟩ : ∃ res, attemptLoop ext true ws prs w' = res := ⟨_, rfl⟩
      intro hloop
      rw [hf, ht] at hloop
      dsimp only at hloop
      have main : (∀ e, (match attemptLoop ext false ws prs w' with
          | (results, w) =>
            match removeDuplicates [] results with
            | .error e => ((.error e, w) : Except Err (Answer × Nat) × World)
            | .ok unique => (answerOf prs.getLast? unique, w)).1 = .error e →
          (match attemptLoop ext true ws prs w' with
          | (results, w) =>
            match removeDuplicates [] results with
            | .error e => ((.error e, w) : Except Err (Answer × Nat) × World)
            | .ok unique => (answerOf prs.getLast? unique, w)).1 = .error e) ∧
          ∀ a q, (match attemptLoop ext true ws prs w' with
          | (results, w) =>
            match removeDuplicates [] results with
            | .error e => ((.error e, w) : Except Err (Answer × Nat) × World)
            | .ok unique => (answerOf prs.getLast? unique, w)).1 = .ok (a, q) →
          ∃ d q', a.results.head? = some d ∧ (match attemptLoop ext false ws prs w' with
          | (results, w) =>
            match removeDuplicates [] results with
            | .error e => ((.error e, w) : Except Err (Answer × Nat) × World)
            | .ok unique => (answerOf prs.getLast? unique, w)).1 = .ok (.dfs d, q') := by
        rw [hf, ht]
        dsimp only
        subst hloop
        cases rt with
        | nil =>
          refine ⟨fun _ h => h, fun a q h => ?_⟩
          simp only [removeDuplicates, answerOf] at h
          cases h
        | cons x rt =>
          obtain ⟨d, q0⟩ := x
          have e1 : removeDuplicates [] [(d, q0)] = .ok [(d, q0)] := rfl
          rw [show List.take 1 ((d, q0) :: rt) = [(d, q0)] from rfl, e1]
          refine ⟨fun _ h => (by cases h), fun a q h => ?_⟩
          refine ⟨d, q0, ?_, rfl⟩
          cases hu : removeDuplicates [] ((d, q0) :: rt) with
          | error e => rw [hu] at h; cases h
          | ok us =>
            rw [hu] at h
            dsimp only at h
            have hp : [(d, q0)] <+: us := by
              rw [removeDuplicates] at hu
              exact removeDuplicates_prefix rt _ _ hu
            rw [answerOf_results h]
            obtain ⟨us', rfl⟩ := hp
            rfl
      match prs, main with
      | [], main => exact main
      | [pr'], _ =>
        dsimp only
        rcases runOn ext ws pr' w' with ⟨_ | fs, w''⟩
        · exact ⟨fun _ h => h, fun _ _ h => by cases h⟩
        · exact ⟨fun _ h => (by cases h), fun _ _ h => by cases h; exact ⟨_, _, rfl, rfl⟩⟩
      | _ :: _ :: _, main => exact main

/-- C119. Take any call without safe mode and the same call in safe mode. If the first raises, the second raises the
same exception. If the second gives an answer, its first result is what the first gives. -/
theorem C119_both_modes (ext : Ext) (wb : List Nat) (given : Given) (name : Str) (preserve : Bool) (w : World) :
    (∀ e, outcome (getDataFrames ext wb given name false preserve w) = .error e →
      outcome (getDataFrames ext wb given name true preserve w) = .error e) ∧
    ∀ a title, outcome (getDataFrames ext wb given name true preserve w) = .ok (a, title) → ∃ d,
      a.results.head? = some d ∧ outcome (getDataFrames ext wb given name false preserve w) = .ok (.dfs d, title) := by
  unfold getDataFrames
  obtain ⟨⟨wb', w'⟩, hres⟩ : ∃ res, (if preserve then copyBook wb w else (wb, w)) = res := ⟨_, rfl⟩
  rw [hres]
  dsimp only
  cases chooseName ext name (wb'.map fun r => (w'.sheets r).title) with
  | error e => exact ⟨fun _ h => h, fun _ _ h => by cases h⟩
  | ok nm =>
    dsimp only
    cases sheetNamed wb' nm w' with
    | error e => exact ⟨fun _ h => h, fun _ _ h => by cases h⟩
    | ok ws =>
      dsimp only
      rcases givenParams given w' with ⟨_ | pr, w1⟩
      · exact ⟨fun _ h => h, fun _ _ h => by cases h⟩
      · dsimp only
        have := scraperFrames_modes ext ws pr w1
        revert this
        rcases scraperFrames ext ws pr false w1 with ⟨e1 | ⟨a1, q1⟩, u1⟩ <;>
          rcases scraperFrames ext ws pr true w1 with ⟨e2 | ⟨a2, q2⟩, u2⟩ <;> rintro ⟨h1, h2⟩
        · refine ⟨fun e h => ?_, fun _ _ h => by cases h⟩
          have := h1 e1 rfl
          cases this
          exact h
        · have := h1 e1 rfl
          cases this
        · exact ⟨fun _ h => (by cases h), fun _ _ h => by cases h⟩
        · refine ⟨fun _ h => (by cases h), fun a title h => ?_⟩
          obtain ⟨d, q', h3, h4⟩ := h2 a2 q2 rfl
          cases h4
          cases h
          exact ⟨d, h3, rfl⟩

/-- Two tables of which one has an empty row, with nothing said about empty rows: in safe mode there are two results,
and the first is what the call gives without safe mode. -/
example : ∃ d ds, ds.length = 1 ∧
    outcome (getDataFrames Sample.ext0 [0] (.object 0) [] true true (Sample.world Sample.sideBlank Sample.sideOpen)) =
      .ok (.several (d :: ds), c!"S") ∧
    outcome (getDataFrames Sample.ext0 [0] (.object 0) [] false true (Sample.world Sample.sideBlank Sample.sideOpen)) =
      .ok (.dfs d, c!"S") := by
  obtain ⟨ds, -, h1, h2, -⟩ := C112_several_violated
  obtain ⟨d, h3, h4⟩ := (C119_both_modes _ _ _ _ _ _).2 _ _ h1
  cases ds with
  | nil => cases h2
  | cons x ds =>
    cases h3
    exact ⟨_, ds, by simpa using h2, h1, h4⟩

/-- Safe mode may raise where the call without it gives an answer: here the results are compared and data frames with
different columns cannot be (see C48). So the converse of the first part is false. -/
theorem C119_safe_raises :
    (outcome (getDataFrames Sample.ext0 [0] (.object 0) [] false true
      (Sample.world Sample.threeSheet (Sample.threeTable none)))).isOk = true ∧
    outcome (getDataFrames Sample.ext0 [0] (.object 0) [] true true
      (Sample.world Sample.threeSheet (Sample.threeTable none))) = .error .exception := by
  obtain ⟨fs, gs, -, -, -, -, h1, h2⟩ := C48_columns_violated
  rw [h1]
  exact ⟨rfl, h2⟩

end Xls
