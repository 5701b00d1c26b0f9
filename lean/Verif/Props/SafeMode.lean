/-
C48, exactly: which results safe mode reports, and when it raises although there are results.
-/
import Verif.Spec.SafeMode
import Verif.Props.Result
import Verif.Lemmas.Determined
import Verif.Props.Tables

set_option autoImplicit false

namespace Xls

open Spec

theorem pairsEqual_zip {fs gs : List Frame} (hf : ∀ f ∈ fs, ProperFrame f) (hg : ∀ g ∈ gs, ProperFrame g) {b : Bool}
    (h : pairsEqual ((fs.map Item.frame).zip (gs.map Item.frame)) = .ok b) :
    b = true ↔ ∀ fg ∈ fs.zip gs, CloseFrames fg.1 fg.2 := by
  have e : (fs.map Item.frame).zip (gs.map Item.frame) =
      (((fs.zip gs).map Prod.fst).map Item.frame).zip (((fs.zip gs).map Prod.snd).map Item.frame) := by
    rw [List.zip_map, List.zip_map, ← List.zip_of_prod (xs := fs.zip gs) rfl rfl]
  rw [e] at h
  rw [pairsEqual_frames (by simp) (fun f hx => ?_) (fun g hx => ?_) h]
  · unfold SameFrames
    rw [List.forall₂_map_left_iff, List.forall₂_map_right_iff, List.forall₂_same]
  · obtain ⟨x, hx', rfl⟩ := List.mem_map.1 hx
    exact hf _ (List.of_mem_zip hx').1
  · obtain ⟨x, hx', rfl⟩ := List.mem_map.1 hx
    exact hg _ (List.of_mem_zip hx').2

/-- Frames of a result are proper and have columns. -/
def Presentable (fs : List Frame) : Prop := ∀ f ∈ fs, ProperFrame f ∧ f.columns ≠ []

theorem takenFor_iff {fs gs : List Frame} (hf : Presentable fs) (hg : Presentable gs) {b : Bool}
    (h : pairsEqual ((unwrap fs).items.zip (unwrap gs).items) = .ok b) : b = true ↔ TakenFor fs gs := by
  have hmany : ∀ {fs : List Frame}, fs.length ≠ 1 → unwrap fs = .many fs := by
    intro fs h
    match fs, h with
    | [], _ => rfl
    | [_], h => exact absurd rfl h
    | _ :: _ :: _, _ => rfl
  unfold TakenFor
  by_cases e1 : fs = []
  · subst e1
    cases h
    simp
  by_cases e2 : gs = []
  · subst e2
    have : ((unwrap fs).items.zip (unwrap []).items) = [] := by simp [unwrap, Dfs.items]
    rw [this] at h
    cases h
    simp
  have hne : ∀ {fs : List Frame}, fs ≠ [] → Presentable fs → (unwrap fs).items ≠ [] := by
    intro fs h1 h2
    match fs, h1 with
    | [f], _ =>
      have := (h2 f (by simp)).2
      simpa [unwrap, Dfs.items] using this
    | a :: b :: l, _ => simp [unwrap, Dfs.items]
  have hzip : (unwrap fs).items.zip (unwrap gs).items ≠ [] := by
    have a := hne e1 hf
    have b := hne e2 hg
    rcases ea : (unwrap fs).items with _ | ⟨x, xs⟩
    · exact absurd ea a
    rcases eb : (unwrap gs).items with _ | ⟨y, ys⟩
    · exact absurd eb b
    simp
  have l1 := List.length_pos_iff.2 e1
  have l2 := List.length_pos_iff.2 e2
  by_cases h1 : fs.length = 1
  · obtain ⟨f, rfl⟩ := List.length_eq_one_iff.1 h1
    rw [pairsEqual_name _ ?_ hzip] at h
    · cases h
      simp [e2]
    · intro x hx
      obtain ⟨n, _, hn⟩ := List.mem_map.1 (show x.1 ∈ f.columns.map Item.name from (List.of_mem_zip hx).1)
      exact ⟨n, hn.symm⟩
  by_cases h2 : gs.length = 1
  · obtain ⟨g, rfl⟩ := List.length_eq_one_iff.1 h2
    have key : ∀ xs : List (Item × Item), (∀ x ∈ xs, ∃ n, x.2 = .name n) → xs ≠ [] → pairsEqual xs = .ok false := by
      intro xs
      induction xs with
      | nil => intro _ h; exact absurd rfl h
      | cons ab xs ih =>
        obtain ⟨a, b⟩ := ab
        intro hx _
        obtain ⟨n, hn⟩ := hx (a, b) (by simp)
        dsimp only at hn
        subst hn
        have hc : compareItems a (.name n) = .error .assertionError := by cases a <;> rfl
        unfold pairsEqual
        rw [hc]
        dsimp only
        cases xs with
        | nil => rfl
        | cons x xs => rw [ih (fun y hy => hx y (by simp [hy])) (by simp)]
    rw [key _ ?_ hzip] at h
    · cases h
      simp [e1]
    · intro x hx
      obtain ⟨n, _, hn⟩ := List.mem_map.1 (show x.2 ∈ g.columns.map Item.name from (List.of_mem_zip hx).2)
      exact ⟨n, hn.symm⟩
  rw [hmany h1, hmany h2] at h
  rw [pairsEqual_zip (fun f hx => (hf f hx).1) (fun g hx => (hg g hx).1) h]
  constructor
  · exact fun h => .inr (.inr ⟨by omega, by omega, h⟩)
  · rintro (h | h | ⟨_, _, h⟩)
    · exact absurd h e1
    · exact absurd h e2
    · exact h

theorem removeDuplicates_reported : ∀ (rs unique us : List (Dfs × Nat)) (all out rest : List (List Frame)),
    Reported all out → unique.map Prod.fst = out.map unwrap → rs.map Prod.fst = rest.map unwrap →
    (∀ fs ∈ all ++ rest, Presentable fs) → (∀ fs ∈ out, fs ∈ all) → removeDuplicates unique rs = .ok us →
    ∃ out', Reported (all ++ rest) out' ∧ us.map Prod.fst = out'.map unwrap
  | [], unique, us, all, out, rest, hr, hu, hrs, _, _, h => by
    cases h
    obtain rfl : rest = [] := by simpa using hrs.symm
    exact ⟨out, by rw [List.append_nil]; exact hr, hu⟩
  | r :: rs, unique, us, all, out, rest, hr, hu, hrs, hp, hsub, h => by
    cases rest with
    | nil => cases hrs
    | cons fs rest =>
      rw [List.map_cons, List.map_cons, List.cons.injEq] at hrs
      have hmem : ∀ v ∈ unique, ∃ gs ∈ out, v.1 = unwrap gs := by
        intro v hv
        have : v.1 ∈ out.map unwrap := by rw [← hu]; exact List.mem_map_of_mem hv
        obtain ⟨gs, hgs, e⟩ := List.mem_map.1 this
        exact ⟨gs, hgs, e.symm⟩
      have hmem' : ∀ gs ∈ out, ∃ v ∈ unique, v.1 = unwrap gs := by
        intro gs hgs
        have : unwrap gs ∈ unique.map Prod.fst := by rw [hu]; exact List.mem_map_of_mem hgs
        obtain ⟨v, hv, e⟩ := List.mem_map.1 this
        exact ⟨v, hv, e⟩
      have pf : Presentable fs := hp fs (by simp)
      have pg : ∀ gs ∈ out, Presentable gs := fun gs hgs => hp gs (by simp [hsub gs hgs])
      rw [removeDuplicates, hrs.1] at h
      have happ : all ++ fs :: rest = (all ++ [fs]) ++ rest := by simp
      rw [happ] at hp ⊢
      cases hrep : isRepeatedIn (unwrap fs) unique with
      | error e => rw [hrep] at h; cases h
      | ok b =>
        rw [hrep] at h
        cases b with
        | true =>
          dsimp only at h
          obtain ⟨v, hv, e⟩ := isRepeatedIn_true hrep
          obtain ⟨gs, hgs, ev⟩ := hmem v hv
          rw [ev] at e
          exact removeDuplicates_reported rs unique us (all ++ [fs]) out rest
            (.repetition hr hgs ((takenFor_iff pf (pg gs hgs) e).1 rfl)) hu hrs.2 hp
            (fun gs hgs => by simp [hsub gs hgs]) h
        | false =>
          dsimp only at h
          refine removeDuplicates_reported rs (unique ++ [r]) us (all ++ [fs]) (out ++ [fs]) rest
            (.new hr fun gs hgs ht => ?_) (by simp [hu, hrs.1]) hrs.2 hp ?_ h
          · obtain ⟨v, hv, ev⟩ := hmem' gs hgs
            have e := isRepeatedIn_false hrep v hv
            rw [ev] at e
            exact absurd ((takenFor_iff pf (pg gs hgs) e).2 ht) (by decide)
          · intro gs hgs
            rcases List.mem_append.1 hgs with hgs | hgs
            · simp [hsub gs hgs]
            · simp only [List.mem_append]
              exact .inr hgs

theorem resultsOf_working (ext : Ext) (s : Sheet) : ∀ ps : List Params, ∃ all, WorkingResults ext s ps all ∧
    resultsOf true (fun q => (scrape ext q s).1) ps = all.map unwrap
  | [] => ⟨[], .nil, rfl⟩
  | p :: ps => by
    obtain ⟨all, h1, h2⟩ := resultsOf_working ext s ps
    rw [resultsOf]
    rcases hs : scrape ext p s with ⟨_ | fs, p', s'⟩
    · refine ⟨all, .fails ?_ h1, h2⟩
      rintro fs p'' ⟨s'', e⟩
      rw [hs] at e
      cases e
    · refine ⟨fs :: all, .works ⟨s', hs⟩ h1, ?_⟩
      dsimp only
      rw [if_pos rfl, h2]
      rfl

theorem working_from {ext : Ext} {s : Sheet} {ps : List Params} {all : List (List Frame)} (h : WorkingResults ext s ps all) :
    ∀ fs ∈ all, ∃ p p', Works ext s p fs p' := by
  induction h with
  | nil => intro fs hfs; cases hfs
  | works hw _ ih =>
    intro fs hfs
    rcases List.mem_cons.1 hfs with rfl | hfs
    · exact ⟨_, _, hw⟩
    · exact ih fs hfs
  | fails _ _ ih => exact ih

/-- C48, exactly which results there are in an answer of safe mode: those of the attempts that work, in their order,
except that a result is left out if it is taken for a repetition of one reported before. (What is false of the code
is that these are the repetitions: see `TakenFor`, `C48_single_frame_violated` and `C48_prefix_violated`.) -/
theorem C48_exact_partial (ext : Ext) (wb : List Nat) (w : World) (given : Given) (name : Str) (preserve : Bool)
    (r : Nat) {p : Params} {ps : List Params} (he : RealDates ext) (hreq : Requested ext wb w name r)
    (hwb : ∀ q ∈ wb, q < w.nextSheet ∧ WellFormed (w.sheets q)) (hv : SheetValid (w.sheets r))
    (hgiven : GivenWith given w p) (hnew : discoverParameters p = .ok (.new ps)) (h2 : 2 ≤ ps.length)
    (a : Answer) (title : Str)
    (h : outcome (getDataFrames ext wb given name true preserve w) = .ok (a, title)) :
    ∃ all out, WorkingResults ext (w.sheets r) ps all ∧ Reported all out ∧ a.results = out.map unwrap := by
  obtain ⟨ws, pr, w1, e1, e2, e3, e4⟩ := call_outcome (safe := true) (preserve := preserve) hreq hwb hgiven
  rw [e4] at h
  obtain ⟨prs, w2, hnd, hmap, hs, hns, e⟩ := scraperFrames_new (ext := ext) (safe := true) (ws := ws)
    (by rw [e3]; exact hnew : discoverParameters (w1.params pr) = _) (by omega)
  rw [e] at h
  have hsr : w2.sheets ws = w.sheets r := by rw [hs, e1]
  have hres := attemptLoop_results ext true ws prs w2 hnd (by omega) (by rw [hsr]; exact (hwb r hreq.1).2)
  rw [hmap, hsr] at hres
  obtain ⟨all, hall, hall2⟩ := resultsOf_working ext (w.sheets r) ps
  rw [hall2] at hres
  cases hu : removeDuplicates [] (attemptLoop ext true ws prs w2).1 with
  | error er => rw [hu] at h; cases h
  | ok us =>
    rw [hu] at h
    dsimp only at h
    have hpres : ∀ fs ∈ [] ++ all, Presentable fs := by
      intro fs hfs f hf
      obtain ⟨q, q', s', hw⟩ := working_from hall fs (by simpa using hfs)
      have := scrape_sound he hv hw f hf
      exact ⟨⟨this.distinct, this.one_each, this.sizes⟩, this.some_column⟩
    obtain ⟨out, h1, h2⟩ := removeDuplicates_reported _ [] us [] [] all .nil rfl hres hpres (by simp) hu
    refine ⟨all, out, hall, h1, ?_⟩
    cases hx : answerOf prs.getLast? us with
    | error er => rw [hx] at h; cases h
    | ok y =>
      obtain ⟨a', q⟩ := y
      rw [hx] at h
      cases h
      rw [answerOf_results hx]
      exact h2

/-! ### Examples -/

namespace Sample

/-- Three tables side by side; the second has an empty row. -/
def threeSheet : Sheet := rows
  [[.str c!"fecha", .str c!"PBI", .none, .str c!"fecha", .str c!"IPC", .none, .str c!"fecha", .str c!"EMAE"],
   [day 2000 1 1, .int 10, .none, day 2000 1 1, .int 3, .none, day 2001 1 1, .int 1],
   [day 2000 2 1, .int 11, .none, day 2000 2 1, .int 4, .none, day 2001 2 1, .int 2],
   [day 2000 3 1, .int 12, .none, .none, .none, .none, day 2001 3 1, .int 3],
   [.none, .none, .none, day 2000 3 1, .int 5, .none, .none, .none]]

def threeTable (b : Option Bool) : Params := fun n =>
  match n, b with
  | .blankRows, none => .none
  | .blankRows, some b => .list [.bool b, .bool b, .bool b]
  | n, _ => paramsOf [{ monthly with headerCoord := c!"B1" }, { monthly with headerCoord := c!"E1", timeHeader := .single c!"D1" },
    { monthly with headerCoord := c!"H1", timeHeader := .single c!"G1" }] n

end Sample

theorem Sample.threeTable_given : GivenFor (Sample.threeTable none) 3 := by
  refine ⟨by decide, by decide, ?_, ⟨_, rfl, by decide⟩⟩
  intro n h1 h2
  cases n <;> first
    | exact absurd rfl h2
    | exact absurd (by decide) h1
    | exact .inl rfl
    | exact .inr ⟨_, rfl, rfl⟩

/-- Two tables, the attempts give the same two data frames. -/
example : ∃ all out, WorkingResults Sample.ext0 Sample.sideSheet [Sample.sideTable false, Sample.sideTable true] all ∧
    Reported all out ∧ [Dfs.many Sample.sideFrames] = out.map unwrap := by
  refine C48_exact_partial Sample.ext0 [0] (Sample.world Sample.sideSheet Sample.sideUnknown) (.object 0) [] true 0
    ⟨fun _ _ _ h => (by cases h), fun _ _ h => (by cases h), fun _ _ => ⟨.nil, fun t h => (by cases h)⟩⟩
    ⟨by simp, by simp, .inl ⟨rfl, rfl⟩⟩ ?_ (Sample.rows_valid ?_) (.inl ⟨0, rfl, rfl⟩) Sample.sideUnknown_attempts
    (by decide) (.dfs (.many Sample.sideFrames)) c!"S" (by decide +kernel)
  · intro q hq
    rw [List.mem_singleton] at hq
    subst hq
    exact ⟨Nat.one_pos, Sample.side_wellFormed⟩
  · simp only [List.mem_cons, List.not_mem_nil, or_false, forall_eq_or_imp, forall_eq, Sample.day]
    simp only [reduceCtorEq, false_implies, implies_true, true_and, Cell.dt.injEq, forall_eq']
    decide

/-- C48, violated: with three tables of which one has an empty row, and nothing said about empty rows, both
completions work and give different results. Without safe mode the call returns the first of them; in safe mode it
raises, because data frames with different columns are not just different for `compare_data_frames`. -/
theorem C48_columns_violated : ∃ fs gs : List Frame, fs ≠ gs ∧ GivenFor (Sample.threeTable none) 3 ∧
    (scrape Sample.ext0 (Sample.threeTable (some false)) Sample.threeSheet).1 = .ok fs ∧
    (scrape Sample.ext0 (Sample.threeTable (some true)) Sample.threeSheet).1 = .ok gs ∧
    outcome (getDataFrames Sample.ext0 [0] (.object 0) [] false true
      (Sample.world Sample.threeSheet (Sample.threeTable none))) = .ok (.dfs (.many fs), c!"S") ∧
    outcome (getDataFrames Sample.ext0 [0] (.object 0) [] true true
      (Sample.world Sample.threeSheet (Sample.threeTable none))) = .error .exception := by
  refine ⟨(match (scrape Sample.ext0 (Sample.threeTable (some false)) Sample.threeSheet).1 with
      | .ok fs => fs
      | .error _ => []),
    (match (scrape Sample.ext0 (Sample.threeTable (some true)) Sample.threeSheet).1 with
      | .ok fs => fs
      | .error _ => []), ?_, Sample.threeTable_given, ?_, ?_, ?_, ?_⟩ <;> decide +kernel

end Xls
