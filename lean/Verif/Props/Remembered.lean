/-
C112: the parameters that are kept after a call (`XlSeries.params`).
-/
import Verif.Props.Again
import Verif.Lemmas.Determined
import Verif.Props.Preserve
import Verif.Props.Tables
import Verif.Props.MovedLeftOut
import Verif.Props.SafeMode

set_option autoImplicit false

namespace Xls

open Spec

/-- A result of the loop over attempts stands with the object that gave it, as it is afterwards. -/
theorem attemptLoop_remembers (ext : Ext) (safe : Bool) (ws : Nat) : ∀ (prs : List Nat) (w : World), prs.Nodup →
    ws < w.nextSheet → WellFormed (w.sheets ws) → ∀ x ∈ (attemptLoop ext safe ws prs w).1,
    x.2 ∈ prs ∧ ∃ fs, Works ext (w.sheets ws) (w.params x.2) fs ((attemptLoop ext safe ws prs w).2.params x.2) ∧
      x.1 = unwrap fs
  | [], _, _, _, _ => by intro x hx; cases hx
  | pr :: prs, w, hnd, hws, hwf => by
    rw [List.nodup_cons] at hnd
    obtain ⟨w2, e1, e2, e3, e4, e5⟩ := attemptLoop_step (ext := ext) (safe := safe) (pr := pr) (prs := prs) hwf hws
    have ih := attemptLoop_remembers ext safe ws prs w2 hnd.2 e2 (by rw [e1]; exact hwf)
    have hrest : ∀ x ∈ (attemptLoop ext safe ws prs w2).1, x.2 ∈ pr :: prs ∧
        ∃ fs, Works ext (w.sheets ws) (w.params x.2) fs ((attemptLoop ext safe ws prs w2).2.params x.2) ∧
          x.1 = unwrap fs := by
      intro x hx
      obtain ⟨h1, h2⟩ := ih x hx
      rw [e1, e4 x.2 (by rintro rfl; exact hnd.1 h1)] at h2
      exact ⟨by simp [h1], h2⟩
    rcases hs : scrape ext (w.params pr) (w.sheets ws) with ⟨res, p', s'⟩
    rw [hs] at e3 e5
    dsimp only at e3 e5
    rw [e5]
    cases res with
    | error e => exact hrest
    | ok fs =>
      cases safe with
      | true =>
        intro x hx
        rcases List.mem_cons.1 hx with rfl | hx
        · refine ⟨by simp, fs, ?_, rfl⟩
          show Works ext (w.sheets ws) (w.params pr) fs ((attemptLoop ext true ws prs w2).2.params pr)
          rw [(attemptLoop_frame ext true ws prs w2).2.2.2 pr hnd.1, e3]
          exact ⟨s', hs⟩
        · exact hrest x hx
      | false =>
        intro x hx
        rw [List.mem_singleton.1 hx]
        refine ⟨by simp, fs, ?_, rfl⟩
        show Works ext (w.sheets ws) (w.params pr) fs (w2.params pr)
        rw [e3]
        exact ⟨s', hs⟩

theorem scraperFrames_remembers {ext : Ext} {ws pr r : Nat} {safe : Bool} {w w' : World} {d : Dfs} (hws : ws < w.nextSheet)
    (hwf : WellFormed (w.sheets ws)) (h : scraperFrames ext ws pr safe w = (.ok (.dfs d, r), w')) :
    ∃ q fs, Tried (w.params pr) q ∧ Works ext (w.sheets ws) q fs (w'.params r) ∧ d = unwrap fs := by
  have one : ∀ (pr : Nat) (w : World), (match runOn ext ws pr w with
        | (.error e, w) => ((.error e, w) : Except Err (Answer × Nat) × World)
        | (.ok fs, w) => (.ok (.dfs (unwrap fs), pr), w)) = (.ok (.dfs d, r), w') →
      ∃ fs, Works ext (w.sheets ws) (w.params pr) fs (w'.params r) ∧ d = unwrap fs := by
    intro pr w h
    unfold runOn at h
    rcases hs : scrape ext (w.params pr) (w.sheets ws) with ⟨_ | fs, p', s'⟩
    · rw [hs] at h
      cases h
    · rw [hs] at h
      cases h
      refine ⟨fs, ?_, rfl⟩
      rw [show (w.update ws r s' p').params r = p' by simp [World.update]]
      exact ⟨s', hs⟩
  unfold Tried
  cases hd : discoverParameters (w.params pr) with
  | error e =>
    unfold scraperFrames at h
    rw [hd] at h
    cases h
  | ok at' =>
    cases at' with
    | same =>
      unfold scraperFrames at h
      rw [hd] at h
      obtain ⟨fs, h1, h2⟩ := one pr w h
      exact ⟨_, fs, rfl, h1, h2⟩
    | new ps =>
      by_cases h1 : ps.length = 1
      · obtain ⟨q, rfl⟩ := List.length_eq_one_iff.1 h1
        unfold scraperFrames at h
        rw [hd] at h
        dsimp only at h
        rw [show w.newParamsAll [q] = ([w.nextParams], (w.newParams q).2) from rfl] at h
        obtain ⟨fs, h1, h2⟩ := one w.nextParams (w.newParams q).2 h
        refine ⟨q, fs, by simp, ?_, h2⟩
        rwa [show (w.newParams q).2.params w.nextParams = q by simp [World.newParams]] at h1
      · obtain ⟨prs, w1, hnd, hmap, hs, hns, e⟩ := scraperFrames_new (ext := ext) (safe := safe) (ws := ws) hd h1
        rw [e] at h
        cases hu : removeDuplicates [] (attemptLoop ext safe ws prs w1).1 with
        | error er => rw [hu] at h; cases h
        | ok us =>
          rw [hu] at h
          dsimp only at h
          injection h with ha hw'
          have hmem : (d, r) ∈ us := by
            unfold answerOf at ha
            split at ha
            · cases ha
            · cases ha
              simp
            · split at ha <;> cases ha
          obtain ⟨k1, fs, k2, k3⟩ := attemptLoop_remembers ext safe ws prs w1 hnd (by omega) (by rw [hs]; exact hwf)
            (d, r) ((removeDuplicates_sub hu (d, r) hmem).resolve_left (by simp))
          rw [hw', hs] at k2
          exact ⟨w1.params r, fs, by rw [← hmap]; exact List.mem_map_of_mem k1, k2, k3⟩

/-- C112. If a call gives one result, in safe mode or not, the parameters that are kept for the worksheet are those
that gave it: the given ones, with one of the possible values for each parameter that was left out, and with the
ends that were found. -/
theorem C112_remembered (ext : Ext) (wb : List Nat) (w w' : World) (given : Given) (name title : Str)
    (safe preserve : Bool) (r N kept : Nat) {p : Params} {d : Dfs} (hreq : Requested ext wb w name r)
    (hwb : ∀ q ∈ wb, q < w.nextSheet ∧ WellFormed (w.sheets q)) (hgiven : GivenWith given w p) (hp : GivenFor p N)
    (hd : ∀ n, LeftOut p n → Discoverable n)
    (h : getDataFrames ext wb given name safe preserve w = (.ok (.dfs d, title, kept), w')) :
    ∃ q fs, Completion p N q ∧ (scrape ext q (w.sheets r)).1 = .ok fs ∧ d = unwrap fs ∧
      (∀ n, n ≠ .dataEnds → w'.params kept n = q n) ∧
      ∀ sps, HasSeries q sps → ∃ sps', HasSeries (w'.params kept) sps' ∧
        List.Forall₂ (EndFilled (∀ sp ∈ sps, sp.timeMulticolumn = false)) sps sps' := by
  obtain ⟨ws, pr, w1, e1, e2, e3, e4⟩ := call_state (safe := safe) (preserve := preserve) hreq hwb hgiven
  rw [e4] at h
  rcases hs : scraperFrames ext ws pr safe w1 with ⟨_ | ⟨a, q0⟩, w2⟩
  · rw [hs] at h
    cases h
  · rw [hs] at h
    cases h
    obtain ⟨q, fs, k1, ⟨s', k2⟩, k3⟩ := scraperFrames_remembers e2 (by rw [e1]; exact (hwb r hreq.1).2) hs
    rw [e3] at k1
    rw [e1] at k2
    refine ⟨q, fs, tried_completion hp hd k1, by rw [k2], k3, ?_, ?_⟩
    · intro n hn
      rw [← scrape_other ext q (w.sheets r) hn, k2]
    · intro sps hsps
      obtain ⟨sps', u1, u2, _⟩ := C90_usable hsps k2
      exact ⟨sps', u1, u2⟩

/-- C112. Under the conditions of `C96_again_partial` for the completions that work, whoever asks again with what was
kept, in any mode, gets the same result. -/
theorem C112_reuse_partial (ext : Ext) (wb : List Nat) (w w' : World) (given : Given) (name title : Str)
    (safe preserve : Bool) (r N kept : Nat) {p : Params} {d : Dfs} (he : ExtValid ext) (hreq : Requested ext wb w name r)
    (hwb : ∀ q ∈ wb, q < w.nextSheet ∧ WellFormed (w.sheets q)) (hsv : SheetValid (w.sheets r))
    (hgiven : GivenWith given w p) (hp : GivenFor p N) (hd : ∀ n, LeftOut p n → Discoverable n)
    (hgood : ∀ q fs p' s', Completion p N q → scrape ext q (w.sheets r) = (.ok fs, p', s') →
      ∃ sps sps', HasSeries q sps ∧ sps ≠ [] ∧ (∀ sp ∈ sps, PlainIndex sp) ∧
        (∀ sp ∈ sps, sp.missingValue ≠ .str c!"Implicit") ∧ SeparateIndexes sps ∧ NoCellEmptied (w.sheets r) s' ∧
        HasSeries p' sps' ∧ ∀ sp ∈ sps', LastDateOnce sp s')
    (h : getDataFrames ext wb given name safe preserve w = (.ok (.dfs d, title, kept), w')) :
    ∀ (w2 : World) (again : Nat) (safe2 preserve2 : Bool), SameBooks w w2 → w2.params again = w'.params kept →
      gives (getDataFrames ext wb (.object again) name safe2 preserve2 w2) (.dfs d) title := by
  intro w2 again safe2 preserve2 ⟨hb1, hb2⟩ hagain
  obtain ⟨ws, pr, w1, e1, e2, e3, e4⟩ := call_state (safe := safe) (preserve := preserve) hreq hwb hgiven
  rw [e4] at h
  rcases hs : scraperFrames ext ws pr safe w1 with ⟨_ | ⟨a, q0⟩, w3⟩
  · rw [hs] at h
    cases h
  · rw [hs] at h
    cases h
    obtain ⟨q, fs, k1, ⟨s', k2⟩, rfl⟩ := scraperFrames_remembers e2 (by rw [e1]; exact (hwb r hreq.1).2) hs
    rw [e3] at k1
    rw [e1] at k2
    obtain ⟨sps, sps', g1, g2, g3, g4, g5, g6, g7, g8⟩ := hgood q fs _ s' (tried_completion hp hd k1) k2
    obtain ⟨s'', h2⟩ := C96_again_partial he hsv g1 g3 g4 g5 k2 g6 g7 g8
    obtain ⟨_, u1, u2, _⟩ := C90_usable g1 k2
    have hreq2 : Requested ext wb w2 name r := by
      unfold Requested at hreq ⊢
      rw [hb1]
      exact hreq
    obtain ⟨pr2, w4, r1⟩ := call_result ext wb w2 (.object again) name safe2 preserve2 r (res := .ok fs) hreq2
      (by rw [hb1, hb2]; exact hwb) (.inl ⟨again, rfl, hagain⟩)
      (complete_series u1 (by
        rintro rfl
        exact g2 (List.length_eq_zero_iff.1 u2.length_eq))) (by rw [hb1]; exact h2)
    refine ⟨pr2, w4, ?_⟩
    rw [r1, hb1]
    rfl

/-! ### Examples -/

namespace Sample

/-- A monthly and a quarterly table with an empty row. -/
def sideBlank : Sheet := rows
  [[.str c!"fecha", .str c!"PBI", .str c!"fecha", .str c!"IPC"],
   [day 2000 1 1, .int 10, day 2000 1 1, .int 3],
   [day 2000 2 1, .int 11, day 2000 4 1, .int 4],
   [.none, .none, .none, .none],
   [day 2000 3 1, .int 12, day 2000 7 1, .int 5]]

/-- Parameters for it that say neither whether there are empty rows nor how the tables stand. -/
def sideOpen : Params := fun n =>
  if n = .blankRows ∨ n = .alignment then .none
  else if n = .missings then .list [.bool false, .bool false] else sideUnknown n

theorem sideOpen_given : GivenFor sideOpen 2 ∧ ∀ n, LeftOut sideOpen n → Discoverable n := by
  refine ⟨⟨by decide, by decide, ?_, ⟨_, rfl, by decide⟩⟩, ?_⟩
  · intro n h1 h2
    cases n <;> first
      | exact absurd rfl h2
      | exact absurd (by decide) h1
      | exact .inl rfl
      | exact .inr ⟨_, rfl, rfl⟩
  · rintro n ⟨h, _⟩
    cases n <;> first | (simp [Discoverable, choices]; done) | cases h | (exfalso; revert h; decide)

/-- What is kept after a call is used for another call. -/
def askAgain (ext : Ext) (wb : List Nat) (given : Given) (name : Str) (safe preserve : Bool) (w : World) :
    Except Err (Answer × Str) :=
  match getDataFrames ext wb given name safe preserve w with
  | (.error e, _) => .error e
  | (.ok (_, _, kept), w') =>
    outcome (getDataFrames ext wb (.object 0) name safe preserve { w with params := fun _ => w'.params kept })

end Sample

/-- C112, violated: if safe mode gives several results, what is kept is the last attempt, whether it worked or not.
Here it did not: asking again with it raises. -/
theorem C112_several_violated : ∃ ds, GivenFor Sample.sideOpen 2 ∧
    outcome (getDataFrames Sample.ext0 [0] (.object 0) [] true true (Sample.world Sample.sideBlank Sample.sideOpen)) =
      .ok (.several ds, c!"S") ∧ ds.length = 2 ∧
    (Sample.askAgain Sample.ext0 [0] (.object 0) [] true true
      (Sample.world Sample.sideBlank Sample.sideOpen)).isOk = false := by
  refine ⟨(match outcome (getDataFrames Sample.ext0 [0] (.object 0) [] true true
      (Sample.world Sample.sideBlank Sample.sideOpen)) with
    | .ok (.several ds, _) => ds
    | _ => []), Sample.sideOpen_given.1, ?_, ?_, ?_⟩ <;> decide +kernel

/-- Without safe mode the first attempt that works is kept, although alignment and empty rows were not given. -/
example : ∃ d, outcome (getDataFrames Sample.ext0 [0] (.object 0) [] false true
      (Sample.world Sample.sideBlank Sample.sideOpen)) = .ok (.dfs d, c!"S") ∧
    Sample.askAgain Sample.ext0 [0] (.object 0) [] false true
      (Sample.world Sample.sideBlank Sample.sideOpen) = .ok (.dfs d, c!"S") := by
  refine ⟨(match outcome (getDataFrames Sample.ext0 [0] (.object 0) [] false true
      (Sample.world Sample.sideBlank Sample.sideOpen)) with
    | .ok (.dfs d, _) => d
    | _ => .many []), ?_, ?_⟩ <;> decide +kernel

/-- The same, from `C112_remembered`: one way of filling in what was left out gave the result, and is kept. -/
example {d : Dfs} {title : Str} {kept : Nat} {w' : World}
    (h : getDataFrames Sample.ext0 [0] (.object 0) [] false true (Sample.world Sample.sideBlank Sample.sideOpen) =
      (.ok (.dfs d, title, kept), w')) :
    ∃ q fs, Completion Sample.sideOpen 2 q ∧ (scrape Sample.ext0 q Sample.sideBlank).1 = .ok fs ∧ d = unwrap fs ∧
      ∀ n, n ≠ .dataEnds → w'.params kept n = q n := by
  obtain ⟨q, fs, h1, h2, h3, h4, _⟩ := C112_remembered Sample.ext0 [0] _ _ (.object 0) [] title false true 0 2 kept
    (p := Sample.sideOpen) ⟨by simp, by simp, .inl ⟨rfl, rfl⟩⟩
    (by
      intro q hq
      rw [List.mem_singleton] at hq
      subst hq
      exact ⟨Nat.one_pos, Sample.rows_wellFormed (by decide) (by decide) (by decide)⟩)
    (.inl ⟨0, rfl, rfl⟩) Sample.sideOpen_given.1 Sample.sideOpen_given.2 h
  exact ⟨q, fs, h1, h2, h3, h4⟩

/-- The quarters, nothing said about blank rows: the call gives a result, and so does the next one with what was kept, in
any mode. -/
example : ∃ d kept w', getDataFrames Sample.ext0 [0] (.object 0) [] false true
      (Sample.world Sample.quarterSheet Sample.twoUnknown) = (.ok (.dfs d, c!"S", kept), w') ∧
    ∀ safe2 preserve2, gives (getDataFrames Sample.ext0 [0] (.object 0) [] safe2 preserve2
      (Sample.world Sample.quarterSheet (w'.params kept))) (.dfs d) c!"S" := by
  obtain ⟨g1, l1⟩ := Sample.pairUnknown_given (.inl rfl)
  rcases h : getDataFrames Sample.ext0 [0] (.object 0) [] false true
    (Sample.world Sample.quarterSheet Sample.twoUnknown) with ⟨res, w'⟩
  have hout : ∃ d, res.map (fun x => (x.1, x.2.1)) = .ok (.dfs d, c!"S") := by
    have h1 : outcome (getDataFrames Sample.ext0 [0] (.object 0) [] false true
        (Sample.world Sample.quarterSheet Sample.twoUnknown)) = .ok (.dfs
          (match outcome (getDataFrames Sample.ext0 [0] (.object 0) [] false true
            (Sample.world Sample.quarterSheet Sample.twoUnknown)) with
          | .ok (.dfs d, _) => d
          | _ => .many []), c!"S") := by
      decide +kernel
    refine ⟨_, Eq.trans ?_ h1⟩
    rw [h]
    cases res <;> rfl
  obtain ⟨d, hd⟩ := hout
  rcases res with e | ⟨a, t, kept⟩
  · cases hd
  cases hd
  refine ⟨d, kept, w', rfl, fun safe2 preserve2 => ?_⟩
  refine C112_reuse_partial Sample.ext0 [0] _ _ (.object 0) [] _ false true 0 2 kept (p := Sample.twoUnknown)
    (by intro s f t h; cases h) ⟨by simp, by simp, .inl ⟨rfl, rfl⟩⟩ ?_ Sample.quarter_sheet_valid (.inl ⟨0, rfl, rfl⟩) g1 ?_
    ?_ h _ 0 safe2 preserve2 ⟨rfl, rfl⟩ rfl
  · intro q hq
    rw [List.mem_singleton] at hq
    subst hq
    exact ⟨Nat.one_pos, Sample.rows_wellFormed (by decide) (by decide) (by decide)⟩
  · intro n hn
    rw [l1] at hn
    subst hn
    simp [Discoverable, choices]
  · intro q fs p' s' h1 h2
    obtain ⟨v, hv, hq⟩ := (h1 .blankRows).1 ((l1 _).2 rfl)
    obtain ⟨b, rfl⟩ : ∃ b, v = .bool b := by
      simp only [choices, List.mem_cons, List.not_mem_nil, or_false] at hv
      rcases hv with rfl | rfl
      exacts [⟨true, rfl⟩, ⟨false, rfl⟩]
    obtain rfl : q = Sample.paramsOf [Sample.quarterBlank b c!"B1", Sample.quarterBlank b c!"C1"] := by
      funext n
      by_cases hn : n = .blankRows
      · subst hn
        exact hq
      · rw [(h1 n).2 fun hl => hn ((l1 n).1 hl)]
        unfold Sample.twoUnknown
        rw [if_neg hn]
        cases n <;> first | rfl | exact absurd rfl hn
    obtain ⟨fs0, s0, k1, k2, k3⟩ := Sample.quarter_scraped_blank b
    rw [show scrape Sample.ext0 _ Sample.quarterSheet = _ from h2] at k1
    cases k1
    refine ⟨_, _, fun _ => rfl, by simp, ?_, ?_, ?_, k2, fun _ => rfl, k3⟩
    · intro sp h
      simp only [List.mem_cons, List.not_mem_nil, or_false] at h
      rcases h with rfl | rfl <;> exact ⟨rfl, rfl, rfl⟩
    · intro sp h
      simp only [List.mem_cons, List.not_mem_nil, or_false] at h
      rcases h with rfl | rfl <;> exact fun h => by cases h
    · intro sp h sp' h' hne
      exact absurd (by
        simp only [List.mem_cons, List.not_mem_nil, or_false] at h h'
        rcases h with rfl | rfl <;> rcases h' with rfl | rfl <;> rfl) hne

end Xls
