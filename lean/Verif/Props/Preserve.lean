/-
Property C50: what scraping does to the parameters of the caller.
-/
import Verif.Props.Scraper
import Verif.Props.Attempts
import Verif.Props.EndToEnd

set_option autoImplicit false

namespace Xls

open Spec

theorem setItem_ends_other {p p' : Params} {v : PVal} (h : p.setItem .dataEnds v = .ok p') {m : Name}
    (hm : m ≠ .dataEnds) : p' m = p m := by
  unfold Params.setItem at h
  rw [if_neg (by simp), if_neg (by simp)] at h
  unfold Params.setPlain at h
  repeat' split at h
  all_goals first
    | (cases h; done)
    | (cases h; unfold Params.store; rw [if_neg hm])

theorem setEnd_other (p : Params) (i : Nat) (stop : Int) {n : Name} (hn : n ≠ .dataEnds) :
    setEnd p i stop n = p n := by
  unfold setEnd
  cases p .dataEnds <;> first | rfl | skip
  show (if n = .dataEnds then _ else p n) = _
  rw [if_neg hn]

theorem cleanSeries_other (ext : Ext) {n : Name} (hn : n ≠ .dataEnds) : ∀ (is : List Nat) (p : Params)
    (s : Sheet) (ends : List (Str × Int)), (cleanSeries ext is p s ends).2.1 n = p n
  | [], _, _, _ => rfl
  | i :: is, p, s, ends => by
    unfold cleanSeries
    split
    · rfl
    · split
      · rfl
      · split
        · rfl
        · rw [cleanSeries_other ext hn is]
          split
          · rfl
          · exact setEnd_other p i _ hn

theorem cleanData_other (ext : Ext) (p : Params) (s : Sheet) {n : Name} (hn : n ≠ .dataEnds) :
    (cleanData ext p s).2.1 n = p n := by
  unfold cleanData
  split
  · rfl
  · split
    · unfold cleanMulti
      split
      · rfl
      · split
        · rfl
        · split
          · rfl
          · split
            · rfl
            · split
              · rfl
              next h => exact setItem_ends_other h hn
    · split
      · rfl
      · exact cleanSeries_other ext hn _ _ _ _

theorem scrape_other (ext : Ext) (p : Params) (s : Sheet) {n : Name} (hn : n ≠ .dataEnds) :
    (scrape ext p s).2.1 n = p n := by
  have h := cleanData_other ext p s hn
  unfold scrape
  rcases hc : cleanData ext p s with ⟨r, p', s'⟩
  rw [hc] at h
  cases r with
  | error e => exact h
  | ok u => exact h

/-- Objects other than the one given to the scraper, and the latter if something is missing in it. -/
theorem scraperFrames_params (ext : Ext) (ws pr : Nat) (safe : Bool) (w : World)
    (h : discoverParameters (w.params pr) ≠ .ok .same) :
    ParamsKept w (scraperFrames ext ws pr safe w).2 := by
  intro q hq
  by_cases hne : q = pr
  · subst hne
    unfold scraperFrames
    cases hd : discoverParameters (w.params q) with
    | error e => rfl
    | ok a =>
      cases a with
      | same => exact absurd hd h
      | new ps =>
        dsimp only
        obtain ⟨n1, _, _, _, n5, _⟩ := newParamsAll_spec ps w
        rcases hnew : w.newParamsAll ps with ⟨prs, w1⟩
        rw [hnew] at n1 n5
        dsimp only at n1 n5
        have hout : q ∉ prs := by
          rw [n1, List.mem_range']
          omega
        split
        next pr' w1' heq =>
          cases heq
          obtain ⟨_, f2, _, _⟩ := runOn_frame ext ws pr' w1
          rcases hrun : runOn ext ws pr' w1 with ⟨r, w'⟩
          rw [hrun] at f2
          have g2 : w'.params q = w.params q := by
            rw [f2 q (by rintro rfl; exact hout (by simp)), n5 q hq]
          cases r <;> exact g2
        next prs' w1' _ heq =>
          cases heq
          obtain ⟨_, _, _, f4⟩ := attemptLoop_frame ext safe ws prs w1
          rcases hloop : attemptLoop ext safe ws prs w1 with ⟨results, w'⟩
          rw [hloop] at f4
          have g2 : w'.params q = w.params q := by rw [f4 q hout, n5 q hq]
          dsimp only
          cases removeDuplicates [] results <;> exact g2
  · exact (scraperFrames_frame ext ws pr safe w).2 q hq hne

/-- With something missing the object is not used as it is. -/
theorem discover_not_same {p : Params} (h : p.getMissings ≠ []) : discoverParameters p ≠ .ok .same := by
  obtain ⟨n, hn⟩ := List.exists_mem_of_ne_nil _ h
  unfold discoverParameters
  cases hc : p.isComplete with
  | error e => simp
  | ok b =>
    cases b with
    | true =>
      exfalso
      unfold Params.getMissings Params.isMissing at hn
      rw [List.mem_filter] at hn
      unfold Params.isComplete at hc
      rw [completeFrom_true] at hc
      have h1 := hc n (Name.mem_all n)
      have h2 := hn.2
      unfold Params.completeAt at h1
      rw [Bool.and_eq_true] at h2
      have h3 : ¬ optionalNames.contains n = true := by
        have := h2.2
        revert this
        cases n <;> decide
      rw [if_neg h3, if_pos h2.1] at h1
      cases h1
    | false =>
      dsimp only
      rw [if_neg (by simpa using h)]
      cases generateAttempts p p.getMissings <;> simp [Except.map]

/-- Calls up to the point where the scraper is created. -/
theorem getDataFrames_cases (ext : Ext) (wb : List Nat) (given : Given) (name : Str) (safe preserve : Bool)
    (w : World) :
    ParamsKept w (getDataFrames ext wb given name safe preserve w).2 ∨
    ∃ ws pr w2, (∀ q < w.nextParams, w2.params q = w.params q) ∧ w.nextParams ≤ w2.nextParams ∧
      (given = .object pr ∨ ((∃ x, given = .other x) ∧ w.nextParams ≤ pr)) ∧
      (getDataFrames ext wb given name safe preserve w).2 = (scraperFrames ext ws pr safe w2).2 := by
  unfold getDataFrames
  have hcopy : ∀ wb' w1, (if preserve then copyBook wb w else (wb, w)) = (wb', w1) →
      w1.params = w.params ∧ w1.nextParams = w.nextParams := by
    intro wb' w1 h
    split at h
    · obtain ⟨_, _, k3, k4, _⟩ := copyBook_kept wb w
      rw [h] at k3 k4
      exact ⟨k3, k4⟩
    · cases h; exact ⟨rfl, rfl⟩
  rcases hc : (if preserve then copyBook wb w else (wb, w)) with ⟨wb', w1⟩
  obtain ⟨h1, h2⟩ := hcopy wb' w1 hc
  have k1 : ParamsKept w w1 := fun q _ => by rw [h1]
  dsimp only
  cases chooseName ext name (wb'.map fun r => (w1.sheets r).title) with
  | error e => exact .inl k1
  | ok nm =>
    dsimp only
    cases hs : sheetNamed wb' nm w1 with
    | error e => exact .inl k1
    | ok ws =>
      dsimp only
      obtain ⟨_, _, g3, g4⟩ := givenParams_frame given w1
      rcases hg : givenParams given w1 with ⟨r, w2⟩
      rw [hg] at g3 g4
      dsimp only at g3 g4
      have k2 : ParamsKept w w2 := fun q hq => by rw [g3 q (by omega), h1]
      cases r with
      | error e => exact .inl k2
      | ok pr =>
        right
        refine ⟨ws, pr, w2, k2, by omega, ?_, ?_⟩
        · cases given with
          | object pr' => cases hg; exact .inl rfl
          | other x =>
            refine .inr ⟨⟨x, rfl⟩, ?_⟩
            unfold givenParams at hg
            dsimp only at hg
            cases hnew : Params.new x with
            | error e => rw [hnew] at hg; cases hg
            | ok p =>
              rw [hnew] at hg
              cases hg
              exact Nat.le_of_eq h2.symm
        · dsimp only
          rcases scraperFrames ext ws pr safe w2 with ⟨r, w3⟩
          cases r <;> rfl

/-- C50, the part that holds for a dictionary or a JSON file: no existing object is modified, whatever
the outcome. (The dictionary itself is a value here: it is deep-copied before anything is done with it,
`parameters.py:166`.) -/
theorem C50_dictionary_partial (ext : Ext) (wb : List Nat) (x : PInput) (name : Str) (safe preserve : Bool)
    (w : World) : ParamsKept w (getDataFrames ext wb (.other x) name safe preserve w).2 := by
  rcases getDataFrames_cases ext wb (.other x) name safe preserve w with h | ⟨ws, pr, w2, h1, h2, h3, h4⟩
  · exact h
  · rcases h3 with h3 | ⟨_, h3⟩
    · cases h3
    · intro q hq
      rw [h4, (scraperFrames_frame ext ws pr safe w2).2 q (by omega) (by omega), h1 q hq]

/-- C50, the part that holds for an object in which something is missing: it is not modified. -/
theorem C50_incomplete_partial (ext : Ext) (wb : List Nat) (pr : Nat) (name : Str) (safe preserve : Bool)
    (w : World) (hpr : pr < w.nextParams) (hm : (w.params pr).getMissings ≠ []) :
    ParamsKept w (getDataFrames ext wb (.object pr) name safe preserve w).2 := by
  rcases getDataFrames_cases ext wb (.object pr) name safe preserve w with h | ⟨ws, pr', w2, h1, h2, h3, h4⟩
  · exact h
  · rcases h3 with h3 | ⟨⟨x, h3⟩, _⟩
    · cases h3
      intro q hq
      rw [h4, scraperFrames_params ext ws pr safe w2 (by rw [h1 pr hpr]; exact discover_not_same hm) q
        (by omega), h1 q hq]
    · cases h3

/-- C50, the part that holds for every object: nothing but its `data_ends` is modified, and no other
object is. -/
theorem C50_object_partial (ext : Ext) (wb : List Nat) (pr : Nat) (name : Str) (safe preserve : Bool)
    (w : World) (q : Nat) (hq : q < w.nextParams) (n : Name) (h : q ≠ pr ∨ n ≠ .dataEnds) :
    (getDataFrames ext wb (.object pr) name safe preserve w).2.params q n = w.params q n := by
  rcases getDataFrames_cases ext wb (.object pr) name safe preserve w with hk |
    ⟨ws, pr', w2, h1, h2, h3, h4⟩
  · rw [hk q hq]
  · rcases h3 with h3 | ⟨⟨x, h3⟩, _⟩
    · cases h3
      rw [h4]
      by_cases hne : q = pr
      · subst hne
        have hn : n ≠ .dataEnds := by rcases h with h | h; exact absurd rfl h; exact h
        by_cases hd : discoverParameters (w2.params q) = .ok .same
        · unfold scraperFrames
          rw [hd]
          dsimp only
          have : (runOn ext ws q w2).2.params q n = w2.params q n := by
            have := scrape_other ext (w2.params q) (w2.sheets ws) hn
            unfold runOn
            rcases hsc : scrape ext (w2.params q) (w2.sheets ws) with ⟨r, p, s⟩
            rw [hsc] at this
            show (if q = q then p else w2.params q) n = _
            rw [if_pos rfl]
            exact this
          rcases hr : runOn ext ws q w2 with ⟨r, w3⟩
          rw [hr] at this
          cases r <;> (dsimp only; rw [this, h1 q hq])
        · rw [scraperFrames_params ext ws q safe w2 hd q (by omega), h1 q hq]
      · rw [(scraperFrames_frame ext ws pr safe w2).2 q (by omega) hne, h1 q hq]
    · cases h3

/-- C50, violated: after a plain table was scraped with a complete object, the object has the row of the
last date as the end of every series. -/
theorem C50_violated {ext : Ext} {w : World} {ws pr : Nat} {safe : Bool} {cs : List Column}
    {timeHeader freq : Str} {start last : Int} {ts : List Time} (hws : ws < w.nextSheet)
    (hwf : WellFormed (w.sheets ws))
    (hcomplete : discoverParameters (w.params pr) = .ok .same)
    (hp : Table (w.params pr) (cs.map Column.header) timeHeader freq start) (hne : cs ≠ [])
    (hfreq : freq ∈ [c!"A", c!"Q", c!"M", c!"W", c!"D"])
    (hsv : SheetValid (w.sheets ws)) (hd : HasDates (w.sheets ws) timeHeader start last ts)
    (hrun : PeriodRun freq ts) (name : Str)
    (hname : chooseName ext name [(w.sheets ws).title] = .ok (w.sheets ws).title) :
    (getDataFrames ext [ws] (.object pr) name safe true w).2.params pr .dataEnds =
      .list (List.replicate cs.length (.int last)) ∧
    (getDataFrames ext [ws] (.object pr) name safe true w).2.params pr .dataEnds ≠ w.params pr .dataEnds := by
  have hf : freq.length = 1 ∧ freq ≠ c!"S" ∧ freq ≠ c!"Y" := by
    simp only [List.mem_cons, List.not_mem_nil, or_false] at hfreq
    rcases hfreq with h | h | h | h | h <;> subst h <;> decide
  obtain ⟨mv, hmv⟩ := hp.missingValue
  have hp0 : TableEnds (w.params pr) (cs.map Column.header) timeHeader freq start
      (List.replicate (cs.map Column.header).length .none) mv :=
    ⟨hp.headersC, hp.alignment, hp.names, hp.composed, hp.context, hp.starts, hp.ends, hp.continuity,
      hp.blankRows, hp.missings, hmv, hp.timeAlignment, hp.multicolumn, hp.timeHeaderC, hp.timeComposed,
      hp.frequency⟩
  obtain ⟨p1, s1, e1, hc1, hp1⟩ := cleanData_table (ext := ext) hp0 (by simpa using hne) hsv hd hf.1
    (consecutive_of_run hf.2.1 hf.2.2 hrun)
  have hsc : ∃ r s', scrape ext (w.params pr) (w.sheets ws) = (r, p1, s') := by
    unfold scrape
    rw [e1]
    exact ⟨_, _, rfl⟩
  obtain ⟨r, s', hsc⟩ := hsc
  obtain ⟨c1, c2, c3, c4, c5, c6⟩ := copyBook_spec [ws] w (by simpa using ⟨hws, hwf⟩)
  rcases hc : copyBook [ws] w with ⟨wb', w1⟩
  rw [hc] at c1 c2 c3 c4 c5 c6
  dsimp only at c1 c2 c3 c4 c5 c6
  have hwb : wb' = [w.nextSheet] := by rw [c1]; rfl
  subst hwb
  have hsheet : w1.sheets w.nextSheet = w.sheets ws := by simpa using c6
  have key : (getDataFrames ext [ws] (.object pr) name safe true w).2.params pr = p1 := by
    unfold getDataFrames
    rw [if_pos rfl, hc]
    dsimp only
    rw [List.map_cons, List.map_nil, hsheet, hname]
    dsimp only
    have hs : sheetNamed [w.nextSheet] (w.sheets ws).title w1 = .ok w.nextSheet := by
      unfold sheetNamed
      rw [List.find?_cons_of_pos (by rw [hsheet]; exact decide_eq_true rfl)]
    rw [hs]
    dsimp only [givenParams]
    unfold scraperFrames
    rw [c4, hcomplete]
    dsimp only
    unfold runOn
    rw [c4, hsheet, hsc]
    cases r with
    | error e =>
      show (if pr = pr then p1 else _) = p1
      rw [if_pos rfl]
    | ok fs =>
      show (if pr = pr then p1 else _) = p1
      rw [if_pos rfl]
  rw [key, hp1.ends, hp.ends]
  constructor
  · simp
  · intro h
    cases cs with
    | nil => exact hne rfl
    | cons c cs => simp [List.replicate_succ] at h

theorem Sample.fullSheet_valid : SheetValid Sample.fullSheet := by
  intro r c t h
  unfold Sample.fullSheet Sample.rows at h
  dsimp only at h
  split at h
  · generalize r.toNat - 1 = i at h
    generalize c.toNat - 1 = j at h
    rcases i with _ | _ | _ | _ | i <;> rcases j with _ | _ | _ | j <;>
      simp [Sample.day] at h <;> subst h <;> decide
  · cases h

/-- The object of the caller says afterwards that both series end in row 4. -/
example : (getDataFrames Sample.ext0 [0] (.object 0) [] false true
      (Sample.world Sample.fullSheet Sample.table)).2.params 0 .dataEnds = .list [.int 4, .int 4] :=
  (C50_violated (cs := [⟨c!"B1", c!"PBI", [.fin 10, .fin 11, .fin 12]⟩,
      ⟨c!"C1", c!"IPC", [.fin 5, .fin 3, .fin (-4)]⟩]) (timeHeader := c!"A1") (freq := c!"M")
    (start := 2) (last := 4) (ts := [⟨2000, 1, 1, 0⟩, ⟨2000, 2, 1, 0⟩, ⟨2000, 3, 1, 0⟩])
    Nat.zero_lt_one Sample.full_wellFormed rfl
    ⟨rfl, rfl, rfl, rfl, rfl, rfl, rfl, rfl, rfl, rfl, ⟨_, rfl⟩, rfl, rfl, rfl, rfl, rfl⟩
    (by decide) (by decide) Sample.fullSheet_valid
    ⟨⟨1, 1, by decide, by rfl, .inl rfl⟩, by decide, by decide⟩
    ⟨⟨_, rfl, rfl, rfl, rfl⟩, ⟨_, rfl, rfl, rfl, rfl⟩, trivial⟩ [] (by decide +kernel)).1

/-- An incomplete object. -/
example : ParamsKept (Sample.world Sample.gapSheet Sample.gapUnknown)
    (getDataFrames Sample.ext0 [0] (.object 0) [] false true
      (Sample.world Sample.gapSheet Sample.gapUnknown)).2 :=
  C50_incomplete_partial _ _ 0 _ _ _ _ Nat.zero_lt_one (by decide +kernel)

/-- C50, violated: when the object is used again on a sheet with one more month, that month is silently
left out; an object that was not used before gives it. -/
theorem C50_reuse_violated :
    ∃ (ext : Ext) (p : Params) (s1 s2 : Sheet) (f g : Frame),
      (scrape ext p s1).1 = .ok [f] ∧ (scrape ext p s2).1 = .ok [g] ∧ g.index.length = 4 ∧
      (scrape ext (scrape ext p s1).2.1 s2).1 = .ok [f] ∧ f.index.length = 3 :=
  ⟨Sample.ext0, Sample.table, Sample.fullSheet, Sample.laterSheet, Sample.fullFrame,
    ⟨c!"MS", [⟨2000, 1, 1, 0⟩, ⟨2000, 2, 1, 0⟩, ⟨2000, 3, 1, 0⟩, ⟨2000, 4, 1, 0⟩], [c!"PBI", c!"IPC"],
      [[.fin 10, .fin 11, .fin 12, .fin 13], [.fin 5, .fin 3, .fin (-4), .fin (-5)]]⟩,
    by decide +kernel⟩

end Xls
