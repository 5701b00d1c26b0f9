/-
A call depends only on what each attempt gives.
-/
import Verif.Spec.Determined
import Verif.Props.LeftOut

set_option autoImplicit false

namespace Xls

open Spec

/-- The parameters that are tried. -/
def Tried (p q : Params) : Prop :=
  match discoverParameters p with
  | .error _ => False
  | .ok .same => q = p
  | .ok (.new ps) => q ∈ ps

/-- The results of the attempts, from what each of them gives. -/
def resultsOf (safe : Bool) (res : Params → Except Err (List Frame)) : List Params → List Dfs
  | [] => []
  | q :: qs =>
    match res q with
    | .error _ => resultsOf safe res qs
    | .ok fs => if safe then unwrap fs :: resultsOf safe res qs else [unwrap fs]

theorem resultsOf_pairs (safe : Bool) {res res2 : Params → Except Err (List Frame)} : ∀ {qs qs2 : List Params},
    List.Forall₂ (fun q q2 => res2 q2 = res q) qs qs2 → resultsOf safe res2 qs2 = resultsOf safe res qs
  | _, _, .nil => rfl
  | _, _, .cons h hs => by
    rw [resultsOf, resultsOf, h, resultsOf_pairs safe hs]

theorem attemptLoop_results (ext : Ext) (safe : Bool) (ws : Nat) : ∀ (prs : List Nat) (w : World), prs.Nodup →
    ws < w.nextSheet → WellFormed (w.sheets ws) →
    (attemptLoop ext safe ws prs w).1.map Prod.fst =
      resultsOf safe (fun q => (scrape ext q (w.sheets ws)).1) (prs.map w.params)
  | [], _, _, _, _ => rfl
  | pr :: prs, w, hnd, hws, hwf => by
    rw [List.nodup_cons] at hnd
    obtain ⟨w2, e1, e2, _, e4, e5⟩ := attemptLoop_step (ext := ext) (safe := safe) (pr := pr) (prs := prs) hwf hws
    have ih := attemptLoop_results ext safe ws prs w2 hnd.2 e2 (by rw [e1]; exact hwf)
    have hmap : prs.map w2.params = prs.map w.params :=
      List.map_congr_left fun q hq => e4 q (by rintro rfl; exact hnd.1 hq)
    rw [e1, hmap] at ih
    rw [e5, List.map_cons, resultsOf]
    cases (scrape ext (w.params pr) (w.sheets ws)).1 with
    | error e => exact ih
    | ok fs =>
      cases safe with
      | true =>
        dsimp only
        rw [if_pos rfl, if_pos rfl, List.map_cons, ih]
      | false => rfl

theorem isRepeatedIn_congr (d : Dfs) : ∀ (us us2 : List (Dfs × Nat)), us2.map Prod.fst = us.map Prod.fst →
    isRepeatedIn d us2 = isRepeatedIn d us
  | [], [], _ => rfl
  | [], _ :: _, h => by cases h
  | _ :: _, [], h => by cases h
  | u :: us, u2 :: us2, h => by
    rw [List.map_cons, List.map_cons, List.cons.injEq] at h
    unfold isRepeatedIn
    rw [h.1, isRepeatedIn_congr d us us2 h.2]

theorem removeDuplicates_congr : ∀ (rs rs2 us us2 : List (Dfs × Nat)), us2.map Prod.fst = us.map Prod.fst →
    rs2.map Prod.fst = rs.map Prod.fst →
    (removeDuplicates us2 rs2).map (List.map Prod.fst) = (removeDuplicates us rs).map (List.map Prod.fst)
  | [], [], us, us2, hu, _ => by
    rw [removeDuplicates, removeDuplicates]
    show Except.ok _ = Except.ok _
    rw [hu]
  | [], _ :: _, _, _, _, h => by cases h
  | _ :: _, [], _, _, _, h => by cases h
  | r :: rs, r2 :: rs2, us, us2, hu, h => by
    rw [List.map_cons, List.map_cons, List.cons.injEq] at h
    rw [removeDuplicates, removeDuplicates, h.1, isRepeatedIn_congr r.1 us us2 hu]
    cases isRepeatedIn r.1 us with
    | error e => rfl
    | ok b =>
      cases b with
      | true => exact removeDuplicates_congr rs rs2 us us2 hu h.2
      | false => exact removeDuplicates_congr rs rs2 _ _ (by simp [hu, h.1]) h.2

theorem answerOf_congr {last last2 : Option Nat} (hl : last2.isSome = last.isSome) {us us2 : List (Dfs × Nat)}
    (hu : us2.map Prod.fst = us.map Prod.fst) :
    (answerOf last2 us2).map Prod.fst = (answerOf last us).map Prod.fst := by
  match us, us2, hu with
  | [], [], _ =>
    unfold answerOf
    rw [hl]
  | [], _ :: _, h => cases h
  | _ :: _, [], h => cases h
  | [(d, pr)], [(d2, pr2)], h =>
    simp only [List.map_cons, List.map_nil, List.cons.injEq, and_true] at h
    unfold answerOf
    subst h
    rfl
  | [_], _ :: _ :: _, h => simp at h
  | _ :: _ :: _, [_], h => simp at h
  | a :: b :: us, a2 :: b2 :: us2, h =>
    unfold answerOf
    cases last with
    | none =>
      cases last2 with
      | none => rfl
      | some _ => cases hl
    | some _ =>
      cases last2 with
      | none => cases hl
      | some _ =>
        dsimp only
        rw [h]
        rfl

/-- The attempts for two parameters correspond. -/
def PairedAttempts (S : Params → Params → Prop) (p p2 : Params) : Prop :=
  match discoverParameters p, discoverParameters p2 with
  | .error e, .error e2 => e2 = e
  | .ok .same, .ok .same => S p p2
  | .ok (.new ps), .ok (.new ps2) => List.Forall₂ S ps ps2
  | _, _ => False

/-- The scraper gives the same answer or error if corresponding attempts give the same. -/
theorem scraperFrames_pairs {ext : Ext} {ws ws2 pr pr2 : Nat} {safe : Bool} {w w2 : World}
    (hws : ws < w.nextSheet) (hws2 : ws2 < w2.nextSheet)
    (hwf : WellFormed (w.sheets ws)) (hwf2 : WellFormed (w2.sheets ws2))
    (h : PairedAttempts (fun q q2 => (scrape ext q2 (w2.sheets ws2)).1 = (scrape ext q (w.sheets ws)).1)
      (w.params pr) (w2.params pr2)) :
    (scraperFrames ext ws2 pr2 safe w2).1.map Prod.fst = (scraperFrames ext ws pr safe w).1.map Prod.fst := by
  unfold PairedAttempts at h
  have one : ∀ (ws ws2 pr pr2 : Nat) (w w2 : World),
      (scrape ext (w2.params pr2) (w2.sheets ws2)).1 = (scrape ext (w.params pr) (w.sheets ws)).1 →
      (match runOn ext ws2 pr2 w2 with
        | (.error e, w) => ((.error e, w) : Except Err (Answer × Nat) × World)
        | (.ok fs, w) => (.ok (.dfs (unwrap fs), pr2), w)).1.map Prod.fst =
      (match runOn ext ws pr w with
        | (.error e, w) => ((.error e, w) : Except Err (Answer × Nat) × World)
        | (.ok fs, w) => (.ok (.dfs (unwrap fs), pr), w)).1.map Prod.fst := by
    intro ws ws2 pr pr2 w w2 h
    unfold runOn
    revert h
    rcases scrape ext (w2.params pr2) (w2.sheets ws2) with ⟨a, b, c⟩
    rcases scrape ext (w.params pr) (w.sheets ws) with ⟨a', b', c'⟩
    intro h
    dsimp only at h
    subst h
    cases a <;> rfl
  cases hd : discoverParameters (w.params pr) with
  | error e =>
    cases hd2 : discoverParameters (w2.params pr2) with
    | error e2 =>
      rw [hd, hd2] at h
      dsimp only at h
      subst h
      unfold scraperFrames
      rw [hd, hd2]
    | ok at2 => rw [hd, hd2] at h; exact h.elim
  | ok at' =>
    cases hd2 : discoverParameters (w2.params pr2) with
    | error e2 => rw [hd, hd2] at h; exact (by cases at' <;> exact h : False).elim
    | ok at2 =>
    rw [hd, hd2] at h
    cases at' with
    | same =>
      cases at2 with
      | new _ => exact h.elim
      | same =>
        unfold scraperFrames
        rw [hd, hd2]
        exact one ws ws2 pr pr2 w w2 h
    | new ps =>
      cases at2 with
      | same => exact h.elim
      | new ps2 =>
      dsimp only at h
      by_cases h1 : ps.length = 1
      · obtain ⟨q, rfl⟩ := List.length_eq_one_iff.1 h1
        obtain ⟨q2, rfl⟩ := List.length_eq_one_iff.1 (h.length_eq ▸ h1)
        unfold scraperFrames
        rw [hd, hd2]
        dsimp only
        have e : ∀ (w : World) (q : Params), w.newParamsAll [q] = ([w.nextParams], (w.newParams q).2) := fun _ _ => rfl
        rw [e, e]
        dsimp only
        refine one ws ws2 _ _ (w.newParams q).2 (w2.newParams q2).2 ?_
        have e2 : ∀ (w : World) (q : Params), (w.newParams q).2.params w.nextParams = q :=
          fun w q => by simp [World.newParams]
        rw [e2, e2]
        cases h with
        | cons h _ => exact h
      · obtain ⟨prs, w1, hnd, hmap, hs, hns, e⟩ := scraperFrames_new (ext := ext) (safe := safe) (ws := ws) hd h1
        obtain ⟨prs2, w12, hnd2, hmap2, hs2, hns2, e2⟩ := scraperFrames_new (ext := ext) (safe := safe) (ws := ws2)
          (pr := pr2) (w := w2) hd2 (by rw [← h.length_eq]; exact h1)
        have hr : (attemptLoop ext safe ws2 prs2 w12).1.map Prod.fst = (attemptLoop ext safe ws prs w1).1.map Prod.fst := by
          rw [attemptLoop_results ext safe ws2 prs2 w12 hnd2 (by omega) (by rw [hs2]; exact hwf2),
            attemptLoop_results ext safe ws prs w1 hnd (by omega) (by rw [hs]; exact hwf), hmap, hmap2, hs, hs2]
          exact resultsOf_pairs safe h
        have hlast : prs2.getLast?.isSome = prs.getLast?.isSome := by
          have hl : prs2.length = prs.length := by
            rw [← List.length_map (f := w12.params), hmap2, ← h.length_eq, ← hmap, List.length_map]
          cases prs with
          | nil => cases prs2 with
            | nil => rfl
            | cons _ _ => cases hl
          | cons _ _ => cases prs2 with
            | nil => cases hl
            | cons _ _ => simp [List.getLast?_cons]
        have hrem := removeDuplicates_congr _ _ [] [] rfl hr
        rw [e, e2]
        cases hx : removeDuplicates [] (attemptLoop ext safe ws prs w1).1 with
        | error er =>
          rw [hx] at hrem
          cases hy : removeDuplicates [] (attemptLoop ext safe ws2 prs2 w12).1 with
          | error er2 =>
            rw [hy] at hrem
            cases hrem
            rfl
          | ok u2 =>
            rw [hy] at hrem
            cases hrem
        | ok u =>
          rw [hx] at hrem
          cases hy : removeDuplicates [] (attemptLoop ext safe ws2 prs2 w12).1 with
          | error er2 =>
            rw [hy] at hrem
            cases hrem
          | ok u2 =>
            rw [hy] at hrem
            exact answerOf_congr hlast (Except.ok.inj hrem)

theorem pairedAttempts_same {S : Params → Params → Prop} {p : Params} (h : ∀ q, Tried p q → S q q) :
    PairedAttempts S p p := by
  unfold Tried at h
  unfold PairedAttempts
  cases hd : discoverParameters p with
  | error e => rfl
  | ok at' =>
    rw [hd] at h
    cases at' with
    | same => exact h p rfl
    | new ps => exact List.forall₂_same.2 h

/-- What a call does: the scraper runs on the requested worksheet, or on a copy of it. -/
theorem call_state {ext : Ext} {wb : List Nat} {w : World} {given : Given} {name : Str} {safe preserve : Bool} {r : Nat}
    {p : Params} (hreq : Requested ext wb w name r) (hwb : ∀ q ∈ wb, q < w.nextSheet ∧ WellFormed (w.sheets q))
    (hgiven : GivenWith given w p) :
    ∃ (ws pr : Nat) (w1 : World), w1.sheets ws = w.sheets r ∧ ws < w1.nextSheet ∧ w1.params pr = p ∧
      getDataFrames ext wb given name safe preserve w =
        ((scraperFrames ext ws pr safe w1).1.map fun x => (x.1, (w.sheets r).title, x.2),
          (scraperFrames ext ws pr safe w1).2) := by
  have key : ∀ (wb1 : List Nat) (w1 : World) (r1 : Nat), Requested ext wb1 w1 name r1 →
      w1.sheets r1 = w.sheets r → r1 < w1.nextSheet → w1.params = w.params →
      ∃ (ws pr : Nat) (w2 : World), w2.sheets ws = w.sheets r ∧ ws < w2.nextSheet ∧ w2.params pr = p ∧
        getDataFrames ext wb1 given name safe false w1 =
          ((scraperFrames ext ws pr safe w2).1.map fun x => (x.1, (w.sheets r).title, x.2),
            (scraperFrames ext ws pr safe w2).2) := by
    intro wb1 w1 r1 hr1 hs1 hlt hp1
    obtain ⟨e1, e2⟩ := requested_found hr1
    obtain ⟨pr, w2, hgp, hw2, hs2, hn2⟩ : ∃ pr w2, givenParams given w1 = (.ok pr, w2) ∧ w2.params pr = p ∧
        w2.sheets = w1.sheets ∧ w2.nextSheet = w1.nextSheet := by
      rcases hgiven with ⟨pr, rfl, h1⟩ | ⟨x, rfl, h1⟩
      · exact ⟨pr, w1, rfl, by rw [hp1]; exact h1, rfl, rfl⟩
      · refine ⟨w1.nextParams, (w1.newParams p).2, ?_, by simp [World.newParams], rfl, rfl⟩
        unfold givenParams
        dsimp only
        rw [h1]
        rfl
    refine ⟨r1, pr, w2, by rw [hs2]; exact hs1, by omega, hw2, ?_⟩
    unfold getDataFrames
    rw [if_neg (by decide)]
    dsimp only
    rw [e1]
    dsimp only
    rw [e2]
    dsimp only
    rw [hgp]
    dsimp only
    rw [hs1]
    rcases scraperFrames ext r1 pr safe w2 with ⟨_ | ⟨a, q⟩, w3⟩ <;> rfl
  cases preserve with
  | false => exact key wb w r hreq rfl (hwb r hreq.1).1 rfl
  | true =>
    obtain ⟨c1, c2, c3, c4, c5, c6⟩ := copyBook_spec wb w hwb
    rcases hc : copyBook wb w with ⟨wb1, w1⟩
    rw [hc] at c1 c2 c3 c4 c5 c6
    dsimp only at c1 c2 c3 c4 c5 c6
    obtain ⟨r1, hr1, hs1⟩ := requested_copy hreq c6
    have hlt : r1 < w1.nextSheet := by
      have := hr1.1
      rw [c1, List.mem_range'] at this
      obtain ⟨i, hi, hx⟩ := this
      omega
    obtain ⟨ws, pr, w2, h1, h2, h3, h4⟩ := key wb1 w1 r1 hr1 hs1 hlt c4
    refine ⟨ws, pr, w2, h1, h2, h3, ?_⟩
    rw [← h4]
    unfold getDataFrames
    rw [if_pos rfl, if_neg (by decide), hc]

/-- The same, seen from the outside. -/
theorem call_outcome {ext : Ext} {wb : List Nat} {w : World} {given : Given} {name : Str} {safe preserve : Bool} {r : Nat}
    {p : Params} (hreq : Requested ext wb w name r) (hwb : ∀ q ∈ wb, q < w.nextSheet ∧ WellFormed (w.sheets q))
    (hgiven : GivenWith given w p) :
    ∃ (ws pr : Nat) (w1 : World), w1.sheets ws = w.sheets r ∧ ws < w1.nextSheet ∧ w1.params pr = p ∧
      outcome (getDataFrames ext wb given name safe preserve w) =
        (scraperFrames ext ws pr safe w1).1.map fun x => (x.1, (w.sheets r).title) := by
  obtain ⟨ws, pr, w1, h1, h2, h3, h4⟩ := call_state (safe := safe) (preserve := preserve) hreq hwb hgiven
  refine ⟨ws, pr, w1, h1, h2, h3, ?_⟩
  rw [h4]
  rcases scraperFrames ext ws pr safe w1 with ⟨_ | ⟨a, q⟩, w3⟩ <;> rfl

/-- Two calls with parameters whose attempts correspond, in any two workbooks. -/
theorem calls_pairs {ext : Ext} {wb wb2 : List Nat} {w w2 : World} {given given2 : Given} {name name2 : Str}
    {safe preserve preserve2 : Bool} {r r2 : Nat} {p p2 : Params} (hreq : Requested ext wb w name r)
    (hreq2 : Requested ext wb2 w2 name2 r2) (hwb : ∀ q ∈ wb, q < w.nextSheet ∧ WellFormed (w.sheets q))
    (hwb2 : ∀ q ∈ wb2, q < w2.nextSheet ∧ WellFormed (w2.sheets q)) (hgiven : GivenWith given w p)
    (hgiven2 : GivenWith given2 w2 p2) (ht : (w2.sheets r2).title = (w.sheets r).title)
    (h : PairedAttempts (fun q q2 => (scrape ext q2 (w2.sheets r2)).1 = (scrape ext q (w.sheets r)).1) p p2) :
    outcome (getDataFrames ext wb2 given2 name2 safe preserve2 w2) =
      outcome (getDataFrames ext wb given name safe preserve w) := by
  obtain ⟨ws, pr, w1, a1, a2, a3, a4⟩ := call_outcome (safe := safe) (preserve := preserve) hreq hwb hgiven
  obtain ⟨ws2, pr2, w12, b1, b2, b3, b4⟩ := call_outcome (safe := safe) (preserve := preserve2) hreq2 hwb2 hgiven2
  have hc := scraperFrames_pairs (ext := ext) (ws := ws) (ws2 := ws2) (pr := pr) (pr2 := pr2) (safe := safe) (w := w1)
    (w2 := w12) a2 b2 (by rw [a1]; exact (hwb r hreq.1).2) (by rw [b1]; exact (hwb2 r2 hreq2.1).2)
    (by rw [a3, b3, a1, b1]; exact h)
  rw [a4, b4, ht]
  revert hc
  rcases scraperFrames ext ws2 pr2 safe w12 with ⟨_ | ⟨a, q⟩, w3⟩ <;>
    rcases scraperFrames ext ws pr safe w1 with ⟨_ | ⟨a', q'⟩, w3'⟩ <;>
    intro hc <;> cases hc <;> rfl

/-- Two calls with the same parameters, in any two workbooks. -/
theorem calls_congr {ext : Ext} {wb wb2 : List Nat} {w w2 : World} {given given2 : Given} {name name2 : Str}
    {safe preserve preserve2 : Bool} {r r2 : Nat} {p : Params} (hreq : Requested ext wb w name r)
    (hreq2 : Requested ext wb2 w2 name2 r2) (hwb : ∀ q ∈ wb, q < w.nextSheet ∧ WellFormed (w.sheets q))
    (hwb2 : ∀ q ∈ wb2, q < w2.nextSheet ∧ WellFormed (w2.sheets q)) (hgiven : GivenWith given w p)
    (hgiven2 : GivenWith given2 w2 p) (ht : (w2.sheets r2).title = (w.sheets r).title)
    (h : ∀ q, Tried p q → (scrape ext q (w2.sheets r2)).1 = (scrape ext q (w.sheets r)).1) :
    outcome (getDataFrames ext wb2 given2 name2 safe preserve2 w2) =
      outcome (getDataFrames ext wb given name safe preserve w) :=
  calls_pairs hreq hreq2 hwb hwb2 hgiven hgiven2 ht (pairedAttempts_same h)

/-- The parameters that are tried are the possible completions. -/
theorem tried_completion {p q : Params} {N : Nat} (hp : GivenFor p N) (hd : ∀ n, LeftOut p n → Discoverable n)
    (h : Tried p q) : Completion p N q := by
  unfold Tried at h
  by_cases hne : p.getMissings = []
  · have hself : Completion p N p := by
      intro n
      refine ⟨fun hn => ?_, fun _ => rfl⟩
      have := mem_getMissings.2 hn
      rw [hne] at this
      cases this
    have hs : discoverParameters p = .ok .same := by
      unfold discoverParameters
      rw [completion_complete hp hd hself]
    rw [hs] at h
    dsimp only at h
    subst h
    exact hself
  · obtain ⟨qs, e, _, hmem, _⟩ := C45_product p N hp hne fun n hn => hd n (mem_getMissings.1 hn)
    rw [e] at h
    exact completion_iff.2 ((hmem q).1 h)

end Xls
