/-
Calls on two worksheets that give data frames in some relation.
-/
import Verif.Spec.Numbers
import Verif.Spec.Determined
import Verif.Lemmas.Determined
import Verif.Props.MovedLeftOut
import Verif.Lemmas.Numbers2

set_option autoImplicit false

namespace Xls

open Spec

theorem unwrap_like {Q : Frame → Frame → Prop} {fs gs : List Frame} (h : List.Forall₂ Q fs gs) :
    DfsRel Q (unwrap fs) (unwrap gs) := by
  cases h with
  | nil => exact .many .nil
  | cons h1 h =>
    cases h with
    | nil => exact .one h1
    | cons h2 h => exact .many (.cons h1 (.cons h2 h))

/-- Reading with some parameters gives data frames in the relation on both worksheets, or the same error. -/
def AlikeRead (ext : Ext) (Q : Frame → Frame → Prop) (s t : Sheet) (q q2 : Params) : Prop :=
  ExRel (List.Forall₂ Q) (scrape ext q s).1 (scrape ext q2 t).1

/-- Two answers with related data frames, or the same error. -/
def AlikeAnswers (Q : Frame → Frame → Prop) (a b : Except Err (Answer × Nat)) : Prop :=
  (∃ e, a = .error e ∧ b = .error e) ∨
    ∃ d d' k k', a = .ok (.dfs d, k) ∧ b = .ok (.dfs d', k') ∧ DfsRel Q d d'

theorem resultsOf_like {Q : Frame → Frame → Prop} {res res2 : Params → Except Err (List Frame)} :
    ∀ {qs qs2 : List Params},
    List.Forall₂ (fun q q2 => ExRel (List.Forall₂ Q) (res q) (res2 q2)) qs qs2 →
    (resultsOf false res qs = [] ∧ resultsOf false res2 qs2 = []) ∨
      ∃ d d', resultsOf false res qs = [d] ∧ resultsOf false res2 qs2 = [d'] ∧ DfsRel Q d d'
  | _, _, .nil => .inl ⟨rfl, rfl⟩
  | _, _, .cons h hs => by
    rw [resultsOf, resultsOf]
    rcases h with ⟨e, k1, k2⟩ | ⟨x, y, k1, k2, k3⟩
    · rw [k1, k2]
      exact resultsOf_like hs
    · rw [k1, k2]
      exact .inr ⟨_, _, rfl, rfl, unwrap_like k3⟩

theorem runOn_like {ext : Ext} {Q : Frame → Frame → Prop} {ws ws2 pr pr2 : Nat} {w w2 : World}
    (h : AlikeRead ext Q (w.sheets ws) (w2.sheets ws2) (w.params pr) (w2.params pr2)) :
    AlikeAnswers Q
      (match runOn ext ws pr w with
        | (.error e, w) => ((.error e, w) : Except Err (Answer × Nat) × World)
        | (.ok fs, w) => (.ok (.dfs (unwrap fs), pr), w)).1
      (match runOn ext ws2 pr2 w2 with
        | (.error e, w) => ((.error e, w) : Except Err (Answer × Nat) × World)
        | (.ok fs, w) => (.ok (.dfs (unwrap fs), pr2), w)).1 := by
  unfold runOn
  unfold AlikeRead at h
  revert h
  rcases scrape ext (w.params pr) (w.sheets ws) with ⟨a, b, c⟩
  rcases scrape ext (w2.params pr2) (w2.sheets ws2) with ⟨a', b', c'⟩
  intro h
  dsimp only at h
  rcases h with ⟨e, rfl, rfl⟩ | ⟨x, y, rfl, rfl, k⟩
  · exact .inl ⟨_, rfl, rfl⟩
  · exact .inr ⟨_, _, _, _, rfl, rfl, unwrap_like k⟩

theorem single_result {rs : List (Dfs × Nat)} {d : Dfs} (h : rs.map Prod.fst = [d]) : ∃ k, rs = [(d, k)] := by
  rcases rs with _ | ⟨⟨d', k⟩, rs⟩
  · cases h
  · simp only [List.map_cons, List.cons.injEq, List.map_eq_nil_iff] at h
    obtain ⟨rfl, rfl⟩ := h
    exact ⟨k, rfl⟩

theorem scraperFrames_like {ext : Ext} {Q : Frame → Frame → Prop} {ws ws2 pr pr2 : Nat} {safe : Bool} {w w2 : World}
    (hws : ws < w.nextSheet) (hws2 : ws2 < w2.nextSheet)
    (hwf : WellFormed (w.sheets ws)) (hwf2 : WellFormed (w2.sheets ws2))
    (hsafe : safe = false ∨ (w.params pr).isComplete = .ok true) (hpr : w2.params pr2 = w.params pr)
    (h : ∀ q, Tried (w.params pr) q → AlikeRead ext Q (w.sheets ws) (w2.sheets ws2) q q) :
    AlikeAnswers Q (scraperFrames ext ws pr safe w).1 (scraperFrames ext ws2 pr2 safe w2).1 := by
  unfold Tried at h
  have hd2 : discoverParameters (w2.params pr2) = discoverParameters (w.params pr) := by rw [hpr]
  cases hd : discoverParameters (w.params pr) with
  | error e =>
    unfold scraperFrames
    rw [hd2, hd]
    exact .inl ⟨_, rfl, rfl⟩
  | ok at' =>
    rw [hd] at h hd2
    cases at' with
    | same =>
      unfold scraperFrames
      rw [hd2, hd]
      exact runOn_like (by rw [hpr]; exact h _ rfl)
    | new ps =>
      dsimp only at h
      have hs0 : safe = false := by
        rcases hsafe with hs | hs
        · exact hs
        · unfold discoverParameters at hd
          rw [hs] at hd
          cases hd
      subst hs0
      by_cases h1 : ps.length = 1
      · obtain ⟨q, rfl⟩ := List.length_eq_one_iff.1 h1
        unfold scraperFrames
        rw [hd, hd2]
        dsimp only
        have e : ∀ (w : World) (q : Params), w.newParamsAll [q] = ([w.nextParams], (w.newParams q).2) := fun _ _ => rfl
        rw [e, e]
        dsimp only
        refine runOn_like (w := (w.newParams q).2) (w2 := (w2.newParams q).2) ?_
        have e2 : ∀ (w : World) (q : Params), (w.newParams q).2.params w.nextParams = q :=
          fun w q => by simp [World.newParams]
        rw [e2, e2]
        exact h q (by simp)
      · obtain ⟨prs, w1, hnd, hmap, hs, hns, e⟩ := scraperFrames_new (ext := ext) (safe := false) (ws := ws) hd h1
        obtain ⟨prs2, w12, hnd2, hmap2, hs2, hns2, e2⟩ := scraperFrames_new (ext := ext) (safe := false) (ws := ws2)
          (pr := pr2) (w := w2) hd2 h1
        have r1 := attemptLoop_results ext false ws prs w1 hnd (by omega) (by rw [hs]; exact hwf)
        have r2 := attemptLoop_results ext false ws2 prs2 w12 hnd2 (by omega) (by rw [hs2]; exact hwf2)
        rw [hmap, hs] at r1
        rw [hmap2, hs2] at r2
        have hlast : prs2.getLast?.isSome = prs.getLast?.isSome := by
          have hl : prs2.length = prs.length := by
            rw [← List.length_map (f := w12.params), hmap2, ← hmap, List.length_map]
          cases prs with
          | nil => cases prs2 with
            | nil => rfl
            | cons _ _ => cases hl
          | cons _ _ => cases prs2 with
            | nil => cases hl
            | cons _ _ => rw [List.getLast?_cons, List.getLast?_cons]; rfl
        rw [e, e2]
        rcases resultsOf_like (Q := Q) (res := fun q => (scrape ext q (w.sheets ws)).1)
          (res2 := fun q => (scrape ext q (w2.sheets ws2)).1) (List.forall₂_same.2 h) with ⟨k1, k2⟩ | ⟨d, d', k1, k2, k3⟩
        · rw [k1] at r1
          rw [k2] at r2
          rw [List.map_eq_nil_iff.1 r1, List.map_eq_nil_iff.1 r2]
          refine .inl ⟨_, rfl, ?_⟩
          show Except.error _ = Except.error _
          rw [hlast]
        · rw [k1] at r1
          rw [k2] at r2
          obtain ⟨x, hx⟩ := single_result r1
          obtain ⟨y, hy⟩ := single_result r2
          rw [hx, hy]
          exact .inr ⟨d, d', x, y, rfl, rfl, k3⟩

/-- The call on the second worksheet does what the call on the first one does, with data frames in the relation. -/
theorem calls_like {ext : Ext} {Q : Frame → Frame → Prop} {wb wb2 : List Nat} {w w2 : World} {given given2 : Given}
    {name name2 : Str} {safe preserve preserve2 : Bool} {r r2 : Nat} {p : Params} (hreq : Requested ext wb w name r)
    (hreq2 : Requested ext wb2 w2 name2 r2) (hwb : ∀ q ∈ wb, q < w.nextSheet ∧ WellFormed (w.sheets q))
    (hwb2 : ∀ q ∈ wb2, q < w2.nextSheet ∧ WellFormed (w2.sheets q)) (hgiven : GivenWith given w p)
    (hgiven2 : GivenWith given2 w2 p) (hsafe : safe = false ∨ p.isComplete = .ok true)
    (h : ∀ q, Tried p q → AlikeRead ext Q (w.sheets r) (w2.sheets r2) q q) :
    (∃ e, outcome (getDataFrames ext wb given name safe preserve w) = .error e ∧
      outcome (getDataFrames ext wb2 given2 name2 safe preserve2 w2) = .error e) ∨
    ∃ d d', outcome (getDataFrames ext wb given name safe preserve w) = .ok (.dfs d, (w.sheets r).title) ∧
      outcome (getDataFrames ext wb2 given2 name2 safe preserve2 w2) = .ok (.dfs d', (w2.sheets r2).title) ∧
      DfsRel Q d d' := by
  obtain ⟨ws, pr, w1, a1, a2, a3, a4⟩ := call_outcome (safe := safe) (preserve := preserve) hreq hwb hgiven
  obtain ⟨ws2, pr2, w12, b1, b2, b3, b4⟩ := call_outcome (safe := safe) (preserve := preserve2) hreq2 hwb2 hgiven2
  rw [a4, b4]
  rcases scraperFrames_like (ext := ext) (Q := Q) (ws := ws) (ws2 := ws2) (pr := pr) (pr2 := pr2) (safe := safe)
    (w := w1) (w2 := w12) a2 b2 (by rw [a1]; exact (hwb r hreq.1).2) (by rw [b1]; exact (hwb2 r2 hreq2.1).2)
    (by rw [a3]; exact hsafe) (by rw [a3, b3]) (by rw [a3, a1, b1]; exact h) with
    ⟨e, k1, k2⟩ | ⟨d, d', k, k', k1, k2, k3⟩
  · rw [k1, k2]
    exact .inl ⟨_, rfl, rfl⟩
  · rw [k1, k2]
    exact .inr ⟨d, d', rfl, rfl, k3⟩

end Xls
