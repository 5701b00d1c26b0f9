/-
Calls with two sets of parameters whose attempts correspond, giving data frames in some relation.
-/
import Verif.Lemmas.Alike

set_option autoImplicit false

namespace Xls

open Spec

theorem scraperFrames_like_pairs {ext : Ext} {Q : Frame → Frame → Prop} {ws ws2 pr pr2 : Nat} {w w2 : World}
    (hws : ws < w.nextSheet) (hws2 : ws2 < w2.nextSheet)
    (hwf : WellFormed (w.sheets ws)) (hwf2 : WellFormed (w2.sheets ws2))
    (h : PairedAttempts (AlikeRead ext Q (w.sheets ws) (w2.sheets ws2)) (w.params pr) (w2.params pr2)) :
    AlikeAnswers Q (scraperFrames ext ws pr false w).1 (scraperFrames ext ws2 pr2 false w2).1 := by
  unfold PairedAttempts at h
  cases hd : discoverParameters (w.params pr) with
  | error e =>
    cases hd2 : discoverParameters (w2.params pr2) with
    | error e2 =>
      rw [hd, hd2] at h
      dsimp only at h
      subst h
      unfold scraperFrames
      rw [hd2, hd]
      exact .inl ⟨_, rfl, rfl⟩
    | ok at2 => rw [hd, hd2] at h; exact h.elim
  | ok at' =>
    cases hd2 : discoverParameters (w2.params pr2) with
    | error e2 => rw [hd, hd2] at h; exact (by cases at' <;> exact h : False).elim
    | ok at2 =>
    rw [hd, hd2] at h
    cases at' with
    | same =>
      cases at2 with
      | new ps2 => exact h.elim
      | same =>
        unfold scraperFrames
        rw [hd2, hd]
        exact runOn_like h
    | new ps =>
      cases at2 with
      | same => exact h.elim
      | new ps2 =>
        dsimp only at h
        by_cases h1 : ps.length = 1
        · have h2 : ps2.length = 1 := by rw [← h.length_eq]; exact h1
          obtain ⟨q, rfl⟩ := List.length_eq_one_iff.1 h1
          obtain ⟨q2, rfl⟩ := List.length_eq_one_iff.1 h2
          unfold scraperFrames
          rw [hd, hd2]
          dsimp only
          have e : ∀ (w : World) (q : Params), w.newParamsAll [q] = ([w.nextParams], (w.newParams q).2) :=
            fun _ _ => rfl
          rw [e, e]
          dsimp only
          refine runOn_like (w := (w.newParams q).2) (w2 := (w2.newParams q2).2) ?_
          have e2 : ∀ (w : World) (q : Params), (w.newParams q).2.params w.nextParams = q :=
            fun w q => by simp [World.newParams]
          rw [e2, e2]
          cases h with
          | cons h _ => exact h
        · have h2 : ps2.length ≠ 1 := by rw [← h.length_eq]; exact h1
          obtain ⟨prs, w1, hnd, hmap, hs, hns, e⟩ := scraperFrames_new (ext := ext) (safe := false) (ws := ws) hd h1
          obtain ⟨prs2, w12, hnd2, hmap2, hs2, hns2, e2⟩ := scraperFrames_new (ext := ext) (safe := false) (ws := ws2)
            (pr := pr2) (w := w2) hd2 h2
          have r1 := attemptLoop_results ext false ws prs w1 hnd (by omega) (by rw [hs]; exact hwf)
          have r2 := attemptLoop_results ext false ws2 prs2 w12 hnd2 (by omega) (by rw [hs2]; exact hwf2)
          rw [hmap, hs] at r1
          rw [hmap2, hs2] at r2
          have hlast : prs2.getLast?.isSome = prs.getLast?.isSome := by
            have hl : prs2.length = prs.length := by
              rw [← List.length_map (f := w12.params), hmap2, ← h.length_eq, ← hmap, List.length_map]
            cases prs with
            | nil => cases prs2 with
              | nil => rfl
              | cons _ _ => cases hl
            | cons _ _ => cases prs2 with
              | nil => cases hl
              | cons _ _ => rw [List.getLast?_cons, List.getLast?_cons]; rfl
          rw [e, e2]
          rcases resultsOf_like (Q := Q) (res := fun q => (scrape ext q (w.sheets ws)).1)
            (res2 := fun q => (scrape ext q (w2.sheets ws2)).1) h with ⟨k1, k2⟩ | ⟨d, d', k1, k2, k3⟩
          · rw [k1] at r1
            rw [k2] at r2
            rw [List.map_eq_nil_iff.1 r1, List.map_eq_nil_iff.1 r2]
            refine .inl ⟨_, rfl, ?_⟩
            show Except.error _ = Except.error _
            rw [hlast]
          · rw [k1] at r1
            rw [k2] at r2
            obtain ⟨x, hx⟩ := single_result r1
            obtain ⟨y, hy⟩ := single_result r2
            rw [hx, hy]
            exact .inr ⟨d, d', x, y, rfl, rfl, k3⟩

/-- The second call does what the first one does, with data frames in the relation. -/
theorem calls_like_pairs {ext : Ext} {Q : Frame → Frame → Prop} {wb wb2 : List Nat} {w w2 : World}
    {given given2 : Given} {name name2 : Str} {preserve preserve2 : Bool} {r r2 : Nat} {p p2 : Params}
    (hreq : Requested ext wb w name r) (hreq2 : Requested ext wb2 w2 name2 r2)
    (hwb : ∀ q ∈ wb, q < w.nextSheet ∧ WellFormed (w.sheets q))
    (hwb2 : ∀ q ∈ wb2, q < w2.nextSheet ∧ WellFormed (w2.sheets q)) (hgiven : GivenWith given w p)
    (hgiven2 : GivenWith given2 w2 p2) (h : PairedAttempts (AlikeRead ext Q (w.sheets r) (w2.sheets r2)) p p2) :
    (∃ e, outcome (getDataFrames ext wb given name false preserve w) = .error e ∧
      outcome (getDataFrames ext wb2 given2 name2 false preserve2 w2) = .error e) ∨
    ∃ d d', outcome (getDataFrames ext wb given name false preserve w) = .ok (.dfs d, (w.sheets r).title) ∧
      outcome (getDataFrames ext wb2 given2 name2 false preserve2 w2) = .ok (.dfs d', (w2.sheets r2).title) ∧
      DfsRel Q d d' := by
  obtain ⟨ws, pr, w1, a1, a2, a3, a4⟩ := call_outcome (safe := false) (preserve := preserve) hreq hwb hgiven
  obtain ⟨ws2, pr2, w12, b1, b2, b3, b4⟩ := call_outcome (safe := false) (preserve := preserve2) hreq2 hwb2 hgiven2
  rw [a4, b4]
  rcases scraperFrames_like_pairs (ext := ext) (Q := Q) (ws := ws) (ws2 := ws2) (pr := pr) (pr2 := pr2)
    (w := w1) (w2 := w12) a2 b2 (by rw [a1]; exact (hwb r hreq.1).2) (by rw [b1]; exact (hwb2 r2 hreq2.1).2)
    (by rw [a1, b1, a3, b3]; exact h) with ⟨e, k1, k2⟩ | ⟨d, d', k, k', k1, k2, k3⟩
  · rw [k1, k2]
    exact .inl ⟨_, rfl, rfl⟩
  · rw [k1, k2]
    exact .inr ⟨d, d', rfl, rfl, k3⟩

end Xls
