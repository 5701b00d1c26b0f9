/-
C74: descriptions are accepted. C62: a plain table through the entry point.
-/
import Verif.Lemmas.Call
import Verif.Props.EndToEnd
import Verif.Props.Attempts
import Verif.Props.Scraper
import Verif.Props.Books

set_option autoImplicit false

namespace Xls

open Spec

/-- C74. A description is accepted and is one of as many series as there are headers. -/
theorem C74_accepted (d : PDict) (ps : List Pos) (t : Pos) (k : Int) (f : Str) (h : Described d ps t k f) :
    ∃ p, Params.new (.dict d) = .ok p ∧ p.num = some ps.length ∧
      p .headersCoord = .list (names ps) ∧
      p .dataStarts = .list (List.replicate ps.length (.int k)) ∧
      p .frequency = .list (List.replicate ps.length (.str f)) := by
  obtain ⟨p, hp⟩ := new_described h
  obtain ⟨hc, hh, hs⟩ := h.headers
  obtain ⟨ts, ht, hts⟩ := h.time
  have hl : (names ps).length = ps.length := by simp [names]
  have hpos : 1 ≤ ps.length := List.length_pos_of_ne_nil h.nonempty
  have hnum : p.num = some ps.length := by
    rw [← hl]
    refine (C35_number_of_series_partial d p hc (.str ts) (names ps) (names [t]) h.distinct hp hh
      (unpackRanges_standsFor hs)).2 ht (unpackRanges_header hts) ?_ ?_
    · rw [hl]; exact hpos
    · intro n vs hv h1 h2 h3
      by_cases hcr : n ∈ critical
      · simp only [critical, List.mem_cons, List.not_mem_nil, or_false] at hcr
        rcases hcr with rfl | rfl | rfl | rfl
        · exact absurd rfl h2
        · exact absurd rfl h1
        · rw [h.starts] at hv; cases hv
        · obtain ⟨s, hs, _⟩ := h.frequency
          rw [hs] at hv; cases hv
      · rcases h.others n _ hv hcr with h' | ⟨h', _⟩
        · cases h'
        · exact absurd ⟨_, rfl⟩ h'
  refine ⟨p, hp, hnum, C36_object d p hc ps h.distinct hp hnum hh hs, ?_, ?_⟩
  · exact C34_one_value d p _ .dataStarts (.int k) h.distinct hp hnum hpos h.starts
      (.inl ⟨by decide, by simp⟩) (by rintro ⟨vs, ⟨⟩⟩)
  · obtain ⟨s, hs, hm, _⟩ := h.frequency
    obtain ⟨f', hm', _, e⟩ := C32_text d p _ s h.distinct hp hnum hpos hs
    rw [freqMeans_eq hm, ← freqMeans_eq hm']
    exact e

theorem row_not_column {ps : List Pos} (hrow : OneRow ps) (h2 : 2 ≤ ps.length) : ¬ SpreadColumn ps := by
  rintro ⟨_, hnd⟩
  obtain ⟨r, hr⟩ := hrow
  rcases ps with _ | ⟨a, _ | ⟨b, rest⟩⟩
  · simp at h2
  · simp at h2
  · rw [List.map_cons, List.map_cons, List.nodup_cons] at hnd
    refine hnd.1 ?_
    rw [hr a (by simp), ← hr b (by simp)]
    exact List.mem_cons_self

theorem discoverable_or (n : Name) : Discoverable n ∨ n ∈ optionalNames ∨ n ∈ critical ∨ n = .missingValue := by
  cases n <;> first
    | exact .inr (.inl (by decide))
    | exact .inr (.inr (.inl (by decide)))
    | exact .inr (.inr (.inr rfl))
    | exact .inl (by simp [Discoverable, choices])

/-- The parameters of a description without anything unusual. -/
theorem described_params {d : PDict} {ps : List Pos} {t : Pos} {k : Int} {f : Str} (h : Described d ps t k f)
    (hu : NothingUnusual d) (hrow : OneRow ps) {p : Params} (hp : Params.new (.dict d) = .ok p)
    (hnum : p.num = some ps.length) :
    (∀ n, Discoverable n → p n = .none ∨ p n = .list (List.replicate ps.length (usual n))) ∧
    (∀ n ∈ optionalNames, p n = .list (List.replicate ps.length .none)) ∧
    p .missingValue = .list (List.replicate ps.length defaultMissingValue) ∧
    p .timeAlignment = .list (List.replicate ps.length (.int 0)) ∧
    p .timeHeaderCoord = .list (List.replicate ps.length (.str (coordStr t.1 t.2))) ∧
    p .timeMulticolumn = .list (List.replicate ps.length (.bool false)) := by
  obtain ⟨hc, hh, hs⟩ := h.headers
  obtain ⟨ts, ht, hts⟩ := h.time
  have hpos : 1 ≤ ps.length := List.length_pos_of_ne_nil h.nonempty
  have hd0 : d ≠ [] := by rintro rfl; cases hh
  have hmiss : ∀ n, n ∉ critical → Missing d n ∨ (Discoverable n ∧ n ≠ .timeMulticolumn ∧ d.get? n = some (usual n)) := by
    intro n hn
    cases hg : d.get? n with
    | none => exact .inl (.inl hg)
    | some v =>
      rcases hu n v hg hn with rfl | ⟨h1, h2, rfl⟩
      · exact .inl (.inr hg)
      · exact .inr ⟨h1, h2, rfl⟩
  have hmulti : Missing d .timeMulticolumn := by
    rcases hmiss .timeMulticolumn (by decide) with h' | ⟨_, h', _⟩
    · exact h'
    · exact absurd rfl h'
  have hth := C36_time_header d p _ ts t h.distinct hp hnum hpos ht hts hmulti
  have hdef := C34_defaults d p _ h.distinct hd0 hp hnum hpos
  have hmv : Missing d .missingValue := by
    rcases hmiss .missingValue (by decide) with h' | ⟨h', _, _⟩
    · exact h'
    · exact absurd rfl h'
  have hta : p .timeAlignment = .list (List.replicate ps.length (.int 0)) := by
    rcases hmiss .timeAlignment (by decide) with h' | ⟨_, _, h'⟩
    · exact hdef.2 h'
    · exact C34_one_value d p _ _ _ h.distinct hp hnum hpos h' (.inl ⟨by decide, by simp⟩)
        (by rintro ⟨vs, ⟨⟩⟩)
  refine ⟨?_, ?_, hdef.1 hmv, hta, hth.1, hth.2⟩
  · have plain : ∀ n, n ∈ [Name.continuity, .blankRows, .missings, .timeComposed] →
        p n = .none ∨ p n = .list (List.replicate ps.length (usual n)) := by
      intro n hn
      have hcr : n ∉ critical := by
        simp only [List.mem_cons, List.not_mem_nil, or_false] at hn
        rcases hn with rfl | rfl | rfl | rfl <;> decide
      rcases hmiss n hcr with h' | ⟨_, _, h'⟩
      · exact .inl (unset_stays h.distinct hd0 hp hnum hn h')
      · refine .inr (C34_one_value d p _ _ _ h.distinct hp hnum hpos h' (.inl ⟨?_, ?_⟩) ?_)
        all_goals
          simp only [List.mem_cons, List.not_mem_nil, or_false] at hn
          rcases hn with rfl | rfl | rfl | rfl <;> first | decide | (intro h0; cases h0; done) | (rintro ⟨vs, h0⟩; cases h0)
    intro n hn
    cases n with
    | alignment =>
      rcases hmiss .alignment (by decide) with h' | ⟨_, _, h'⟩
      · obtain ⟨_, hho, hcases⟩ := C41_object d p hc ps _ h.distinct hp hnum hpos hh hs h.positive h'
        rcases hcases with e | e | e
        · exact .inl e
        · exact .inr e
        · exfalso
          obtain ⟨h2, h3, _⟩ := hho.1 e
          exact row_not_column hrow h2 h3
      · exact .inr (C34_one_value d p _ _ _ h.distinct hp hnum hpos h' (.inr ⟨.inl rfl, .inr (.inl ⟨_, _, rfl⟩)⟩) (by rintro ⟨vs, ⟨⟩⟩))
    | timeAlignment => exact .inr hta
    | timeMulticolumn => exact .inr hth.2
    | continuity => exact plain _ (by decide)
    | blankRows => exact plain _ (by decide)
    | missings => exact plain _ (by decide)
    | timeComposed => exact plain _ (by decide)
    | _ => exact absurd rfl hn
  · intro n hn
    refine optional_unset h.distinct hd0 hp hnum hpos hh hs hn ?_
    have hcr : n ∉ critical ∧ ¬ Discoverable n := by
      simp only [optionalNames, List.mem_cons, List.not_mem_nil, or_false] at hn
      rcases hn with rfl | rfl | rfl | rfl <;> exact ⟨by decide, fun h => h rfl⟩
    rcases hmiss n hcr.1 with h' | ⟨h', _, _⟩
    · exact h'
    · exact absurd h' hcr.2

/-- The usual value for what is missing makes the parameters those of a plain table. -/
theorem described_table {d : PDict} {ps : List Pos} {t : Pos} {k : Int} {f : Str} (h : Described d ps t k f)
    (hu : NothingUnusual d) (hrow : OneRow ps) {p : Params} (hp : Params.new (.dict d) = .ok p)
    (hnum : p.num = some ps.length) (hh : p .headersCoord = .list (names ps))
    (hst : p .dataStarts = .list (List.replicate ps.length (.int k)))
    (hf : p .frequency = .list (List.replicate ps.length (.str f))) :
    Table (withChoice p ps.length p.getMissings usual) (ps.map fun p => coordStr p.1 p.2) (coordStr t.1 t.2)
      f k ∧
    (∀ n ∈ p.getMissings, Discoverable n) ∧ GivenFor p ps.length := by
  obtain ⟨h1, h2, h3, h4, h5, h6⟩ := described_params h hu hrow hp hnum
  have hpos : 1 ≤ ps.length := List.length_pos_of_ne_nil h.nonempty
  have hmem : ∀ n, n ∈ p.getMissings → p n = .none := by
    intro n hn
    unfold Params.getMissings at hn
    rw [List.mem_filter] at hn
    have := hn.2
    unfold Params.isMissing at this
    rw [Bool.and_eq_true] at this
    have h' := this.1
    cases hv : p n <;> rw [hv] at h' <;> first | rfl | cases h'
  have hkeep : ∀ n v, p n = v → v ≠ .none → withChoice p ps.length p.getMissings usual n = v := by
    intro n v hv hne
    unfold withChoice
    rw [if_neg, hv]
    intro hn
    exact hne (by rw [← hv, hmem n hn])
  have hdisc : ∀ n, Discoverable n →
      withChoice p ps.length p.getMissings usual n = .list (List.replicate ps.length (usual n)) := by
    intro n hn
    rcases h1 n hn with e | e
    · unfold withChoice
      rw [if_pos]
      unfold Params.getMissings
      rw [List.mem_filter]
      refine ⟨Name.mem_all n, ?_⟩
      unfold Params.isMissing
      rw [e]
      revert hn
      cases n <;> first | (intro _; rfl) | (intro h0; exact absurd rfl h0)
    · exact hkeep n _ e (by simp)
  have hopt : ∀ n ∈ optionalNames,
      withChoice p ps.length p.getMissings usual n = .list (List.replicate ps.length .none) :=
    fun n hn => hkeep n _ (h2 n hn) (by simp)
  have hne : ∀ n ∈ Name.all, Discoverable n ∨ p n ≠ .none := by
    intro n _
    rcases discoverable_or n with h' | h' | h' | rfl
    · exact .inl h'
    · exact .inr (by rw [h2 n h']; simp)
    · refine .inr ?_
      simp only [critical, List.mem_cons, List.not_mem_nil, or_false] at h'
      rcases h' with rfl | rfl | rfl | rfl
      · rw [h5]; simp
      · rw [hh]; simp
      · rw [hst]; simp
      · rw [hf]; simp
    · exact .inr (by rw [h3]; simp)
  refine ⟨⟨?_, ?_, ?_, ?_, ?_, ?_, ?_, ?_, ?_, ?_, ⟨defaultMissingValue, ?_⟩, ?_, ?_, ?_, ?_, ?_⟩, ?_, ?_⟩
  all_goals try rw [List.length_map]
  · rw [hkeep _ _ hh (by simp)]
    unfold names
    rw [List.map_map]
    rfl
  · exact hdisc .alignment (by simp [Discoverable, choices])
  · exact hopt _ (by decide)
  · exact hopt _ (by decide)
  · exact hopt _ (by decide)
  · exact hkeep _ _ hst (by simp)
  · exact hopt _ (by decide)
  · exact hdisc .continuity (by simp [Discoverable, choices])
  · exact hdisc .blankRows (by simp [Discoverable, choices])
  · exact hdisc .missings (by simp [Discoverable, choices])
  · exact hkeep _ _ h3 (by simp)
  · exact hdisc .timeAlignment (by simp [Discoverable, choices])
  · exact hdisc .timeMulticolumn (by simp [Discoverable, choices])
  · exact hkeep _ _ h5 (by simp)
  · exact hdisc .timeComposed (by simp [Discoverable, choices])
  · exact hkeep _ _ hf (by simp)
  · intro n hn
    rcases hne n (Name.mem_all n) with h' | h'
    · exact h'
    · exact absurd (hmem n hn) h'
  · refine ⟨hnum, hpos, ?_, ⟨_, h5, by rw [List.length_replicate]; omega⟩⟩
    intro n ho ht
    have hlen : ∀ v, p n = .list (List.replicate ps.length v) →
        p n = .none ∨ ∃ vs, p n = .list vs ∧ vs.length = ps.length :=
      fun v e => .inr ⟨_, e, List.length_replicate⟩
    by_cases hd : Discoverable n
    · rcases h1 n hd with e | e
      · exact .inl e
      · exact hlen _ e
    · rcases discoverable_or n with h' | h' | h' | rfl
      · exact absurd h' hd
      · exact absurd h' ho
      · simp only [critical, List.mem_cons, List.not_mem_nil, or_false] at h'
        rcases h' with rfl | rfl | rfl | rfl
        · exact absurd rfl ht
        · exact .inr ⟨_, hh, by simp [names]⟩
        · exact hlen _ hst
        · exact hlen _ hf
      · exact hlen _ h3

/-- A choice other than the usual one. -/
def unusual : Name → PVal
  | .timeAlignment => .int 1
  | .alignment => .str c!"horizontal"
  | .continuity => .bool false
  | _ => .bool true

theorem two_attempts {p : Params} {N : Nat} (hp : GivenFor p N) (hne : p.getMissings ≠ [])
    (hd : ∀ n ∈ p.getMissings, Discoverable n) :
    ∃ after, discoverParameters p = .ok (.new (withChoice p N p.getMissings usual :: after)) ∧
      (withChoice p N p.getMissings usual :: after).length ≠ 1 := by
  obtain ⟨qs, e, _, hmem, hhead⟩ := C45_product p N hp hne hd
  cases qs with
  | nil => cases hhead
  | cons q after =>
    cases hhead
    refine ⟨after, e, ?_⟩
    have h2 : withChoice p N p.getMissings unusual ∈ withChoice p N p.getMissings usual :: after := by
      rw [hmem]
      refine ⟨unusual, ?_, rfl⟩
      intro n hn
      have := hd n hn
      revert this
      cases n <;> simp [Discoverable, choices, unusual]
    intro hl
    have ha : after = [] := by
      cases after with
      | nil => rfl
      | cons => simp at hl
    subst ha
    rw [List.mem_singleton] at h2
    obtain ⟨n, hn⟩ := List.exists_mem_of_ne_nil _ hne
    have hx := withChoice_inj hp.pos h2 n hn
    have := hd n hn
    revert this hx
    cases n <;> simp [Discoverable, choices, unusual, usual]

/-- What the usual values give is the answer. -/
theorem usual_answer {ext : Ext} {ws pr : Nat} {w : World} {N : Nat} {p p' : Params} {f : Frame}
    (hpr : w.params pr = p) (hp : GivenFor p N) (hd : ∀ n ∈ p.getMissings, Discoverable n)
    (hws : ws < w.nextSheet) (hwf : WellFormed (w.sheets ws))
    (hw : Works ext (w.sheets ws) (withChoice p N p.getMissings usual) [f] p') :
    ∃ r w', scraperFrames ext ws pr false w = (.ok (.dfs (.one f), r), w') ∧ w'.params r = p' := by
  by_cases hne : p.getMissings = []
  · have he : withChoice p N p.getMissings usual = p := by
      funext n
      unfold withChoice
      rw [hne, if_neg (by simp)]
    have hc := complete_withChoice hp usual (by rw [he]; exact hp.num)
    rw [he] at hc hw
    obtain ⟨s', hs⟩ := hw
    have hrun : runOn ext ws pr w = (.ok [f], w.update ws pr s' p') := by
      unfold runOn
      rw [hpr, hs]
    refine ⟨pr, w.update ws pr s' p', ?_, ?_⟩
    · unfold scraperFrames discoverParameters
      rw [hpr, hc]
      dsimp only
      rw [hrun]
      rfl
    · unfold World.update
      simp
  · obtain ⟨after, e, h2⟩ := two_attempts hp hne hd
    obtain ⟨d, r, w', e', hg, hr⟩ := C46_first_success ext ws pr w [] after _ p' [f] (by rw [hpr]; exact e) h2 hws
      hwf (by simp) hw
    refine ⟨r, w', ?_, hr⟩
    rw [e']
    rcases hg with ⟨g, h1, rfl⟩ | ⟨h1, _⟩
    · cases h1; rfl
    · exact absurd rfl h1

/-- The worksheet asked for is found. -/
theorem requested_found {ext : Ext} {wb : List Nat} {w : World} {name : Str} {r : Nat}
    (h : Requested ext wb w name r) :
    chooseName ext name (wb.map fun r => (w.sheets r).title) = .ok (w.sheets r).title ∧
      sheetNamed wb (w.sheets r).title w = .ok r := by
  obtain ⟨hmem, hnd, hn⟩ := h
  constructor
  · rcases hn with ⟨rfl, hh⟩ | ⟨hne, hr⟩
    · cases wb with
      | nil => cases hh
      | cons a wb => cases hh; rfl
    · unfold chooseName
      rw [if_neg hne, (C69_resolution ext name _ _).2 hr]
  · unfold sheetNamed
    have : wb.find? (fun q => decide ((w.sheets q).title = (w.sheets r).title)) = some r := by
      clear hn
      induction wb with
      | nil => cases hmem
      | cons a wb ih =>
        rw [List.map_cons, List.nodup_cons] at hnd
        rcases List.mem_cons.1 hmem with rfl | hm
        · rw [List.find?_cons_of_pos (by simp)]
        · rw [List.find?_cons_of_neg]
          · exact ih hm hnd.2
          · intro he
            rw [decide_eq_true_iff] at he
            exact hnd.1 (List.mem_map.2 ⟨r, hm, he.symm⟩)
    rw [this]

/-- The copy of the worksheet asked for is asked for in the copy of the workbook. -/
theorem requested_copy {ext : Ext} {wb wb' : List Nat} {w w' : World} {name : Str} {r : Nat}
    (h : Requested ext wb w name r) (hc : wb'.map w'.sheets = wb.map w.sheets) :
    ∃ r', Requested ext wb' w' name r' ∧ w'.sheets r' = w.sheets r := by
  have ht : wb'.map (fun r => (w'.sheets r).title) = wb.map (fun r => (w.sheets r).title) := by
    have := congrArg (List.map Sheet.title) hc
    rw [List.map_map, List.map_map] at this
    exact this
  obtain ⟨hmem, hnd, hn⟩ := h
  rcases hn with ⟨rfl, hh⟩ | ⟨hne, hr⟩
  · cases wb with
    | nil => cases hh
    | cons a wb =>
      cases hh
      cases wb' with
      | nil => cases hc
      | cons a' wb' =>
        rw [List.map_cons, List.map_cons, List.cons.injEq] at hc
        exact ⟨a', ⟨List.mem_cons_self, by rw [ht]; exact hnd, .inl ⟨rfl, rfl⟩⟩, hc.1⟩
  · have : w.sheets r ∈ wb'.map w'.sheets := by rw [hc]; exact List.mem_map_of_mem hmem
    obtain ⟨r', hr', e⟩ := List.mem_map.1 this
    exact ⟨r', ⟨hr', by rw [ht]; exact hnd, .inr ⟨hne, by rw [ht, e]; exact hr⟩⟩, e⟩

/-- C62. Reading a plain table from a workbook with a dictionary that describes it: the four critical
parameters, all else left out or usual. The answer is one data frame whose index is the dates of the rows and
whose columns are the columns of the sheet, whether or not the workbook is copied first. -/
theorem C62_call (ext : Ext) (wb : List Nat) (w : World) (name : Str) (preserve : Bool) (r : Nat) (d : PDict)
    (ps : List Pos) (t : Pos) (freq : Str) (start last : Int) (ts : List Time) (cs : List Column)
    (hreq : Requested ext wb w name r) (hwb : ∀ q ∈ wb, q < w.nextSheet ∧ WellFormed (w.sheets q))
    (hd : Described d ps t start freq) (hu : NothingUnusual d) (hrow : OneRow ps)
    (hcols : cs.map Column.header = ps.map fun p => coordStr p.1 p.2)
    (hfreq : freq ∈ [c!"A", c!"Q", c!"M", c!"W", c!"D"])
    (hsv : SheetValid (w.sheets r)) (hdates : HasDates (w.sheets r) (coordStr t.1 t.2) start last ts)
    (hcs : ∀ c ∈ cs, HasColumn ext (w.sheets r) start last c)
    (hstart : ∀ a, ts.head? = some a → PeriodStart freq a) (hrun : PeriodRun freq ts)
    (hrep : ∀ t ∈ ts, Representable t) :
    ∃ columns pr w',
      getDataFrames ext wb (.other (.dict d)) name false preserve w =
        (.ok (.dfs (.one ⟨indexFreq freq, ts, columns, cs.map Column.values⟩), (w.sheets r).title, pr), w') ∧
      ColumnsOf (cs.map fun c => strip (ext.unidecode c.text)) columns := by
  obtain ⟨p, hp, hnum, hh, hst, hf⟩ := C74_accepted d ps t start freq hd
  obtain ⟨htab, hdisc, hgiv⟩ := described_table hd hu hrow hp hnum hh hst hf
  rw [← hcols] at htab
  have hne : cs ≠ [] := by
    rintro rfl
    exact hd.nonempty (List.map_eq_nil_iff.1 hcols.symm)
  obtain ⟨columns, p', s', hscr, hco⟩ := C62_plain_table htab hne hfreq hsv hdates hcs hstart hrun hrep
  -- from the workbook that is read on
  have key : ∀ (wb1 : List Nat) (w1 : World) (r1 : Nat), Requested ext wb1 w1 name r1 →
      w1.sheets r1 = w.sheets r → r1 < w1.nextSheet →
      ∃ pr w', getDataFrames ext wb1 (.other (.dict d)) name false false w1 =
        (.ok (.dfs (.one ⟨indexFreq freq, ts, columns, cs.map Column.values⟩), (w.sheets r).title, pr), w') := by
    intro wb1 w1 r1 hr1 hs1 hlt
    obtain ⟨e1, e2⟩ := requested_found hr1
    have hgp : givenParams (.other (.dict d)) w1 = (.ok w1.nextParams, (w1.newParams p).2) := by
      unfold givenParams
      dsimp only
      rw [hp]
      rfl
    obtain ⟨pr, w', e, _⟩ := usual_answer (ext := ext) (ws := r1) (pr := w1.nextParams)
      (w := (w1.newParams p).2) (p := p) (p' := p')
      (f := ⟨indexFreq freq, ts, columns, cs.map Column.values⟩) (by simp [World.newParams]) hgiv hdisc hlt
      (by
        show WellFormed (w1.sheets r1)
        rw [hs1]
        exact (hwb r hreq.1).2)
      (by
        show Works ext (w1.sheets r1) _ _ _
        rw [hs1]
        exact ⟨s', hscr⟩)
    refine ⟨pr, w', ?_⟩
    unfold getDataFrames
    rw [if_neg (by decide)]
    dsimp only
    rw [e1]
    dsimp only
    rw [e2]
    dsimp only
    rw [hgp]
    dsimp only
    rw [e, hs1]
  cases preserve with
  | false =>
    obtain ⟨pr, w', e⟩ := key wb w r hreq rfl (hwb r hreq.1).1
    exact ⟨columns, pr, w', e, hco⟩
  | true =>
    obtain ⟨c1, c2, c3, c4, c5, c6⟩ := copyBook_spec wb w hwb
    rcases hc : copyBook wb w with ⟨wb1, w1⟩
    rw [hc] at c1 c2 c3 c4 c5 c6
    dsimp only at c1 c2 c3 c4 c5 c6
    obtain ⟨r1, hr1, hs1⟩ := requested_copy hreq c6
    obtain ⟨pr, w', e⟩ := key wb1 w1 r1 hr1 hs1 (by
      have := hr1.1
      rw [c1, List.mem_range'] at this
      obtain ⟨i, hi, hx⟩ := this
      omega)
    refine ⟨columns, pr, w', ?_, hco⟩
    rw [← e]
    unfold getDataFrames
    rw [if_pos rfl, if_neg (by decide), hc]

/-! ### Example: the dictionary of the documentation (`xlseries.py:91-96`) -/

/-- Headers in two cells, times under a third one, monthly data from row 2 on. -/
def Sample.short : PDict :=
  [(.known .headersCoord, .list [.str c!"B1", .str c!"C1"]), (.known .dataStarts, .int 2),
   (.known .frequency, .str c!"M"), (.known .timeHeaderCoord, .str c!"A1")]

theorem Sample.short_described : Described Sample.short [(1, 2), (1, 3)] (1, 1) 2 c!"M" where
  distinct := by unfold DistinctKeys; decide
  known := by
    intro kv hkv
    simp only [Sample.short, List.mem_cons, List.not_mem_nil, or_false] at hkv
    rcases hkv with rfl | rfl | rfl | rfl <;> exact ⟨_, rfl⟩
  headers := ⟨_, rfl, .inr ⟨[c!"B1", c!"C1"], [[(1, 2)], [(1, 3)]], rfl, by decide,
    .cons (.inl ⟨(1, 2), by decide, by decide, by decide, rfl⟩)
      (.cons (.inl ⟨(1, 3), by decide, by decide, by decide, rfl⟩) .nil), rfl⟩⟩
  positive := by unfold Positive; decide
  nonempty := by decide
  time := ⟨_, rfl, .inl ⟨(1, 1), by decide, by decide, by decide, rfl⟩⟩
  starts := rfl
  frequency := ⟨_, rfl, by unfold FreqMeans; decide, by unfold FreqCode; decide⟩
  others := by
    intro n v hv hn
    cases n <;> first | (cases hv; done) | exact absurd (by decide) hn
  below := by intro _; decide
  beside := by
    rintro (h | ⟨_, h2, h3⟩)
    · cases h
    · exact absurd h3 (row_not_column ⟨1, by decide⟩ h2)

example : ∃ p, Params.new (.dict Sample.short) = .ok p ∧ p.num = some 2 ∧
    p .headersCoord = .list (names [(1, 2), (1, 3)]) ∧
    p .dataStarts = .list (List.replicate 2 (.int 2)) ∧
    p .frequency = .list (List.replicate 2 (.str c!"M")) :=
  C74_accepted _ _ _ _ _ Sample.short_described

/-- Reading three months of two series with that dictionary, from the second sheet of a workbook. -/
example : ∃ columns pr w',
    getDataFrames { Sample.ext0 with floatOfStr := fun _ => some (.fin 3) } [0, 1]
      (.other (.dict Sample.short)) c!"S" false true
      ⟨fun r => if r = 1 then Sample.tableSheet else Sheet.empty c!"T", 2, fun _ => Params.empty, 0⟩ =
      (.ok (.dfs (.one ⟨c!"MS", [⟨2000, 1, 1, 0⟩, ⟨2000, 2, 1, 0⟩, ⟨2000, 3, 1, 0⟩], columns,
        [[.fin 10, .fin 11, .fin 1], [.fin (1/2), .fin 3, .fin (-4)]]⟩), c!"S", pr), w') ∧
    ColumnsOf [c!"PBI", c!"PBI"] columns :=
  C62_call { Sample.ext0 with floatOfStr := fun _ => some (.fin 3) } [0, 1]
    ⟨fun r => if r = 1 then Sample.tableSheet else Sheet.empty c!"T", 2, fun _ => Params.empty, 0⟩ c!"S" true 1
    Sample.short [(1, 2), (1, 3)] (1, 1) c!"M" 2 4 _
    [⟨c!"B1", c!"PBI", [.fin 10, .fin 11, .fin 1]⟩, ⟨c!"C1", c!"PBI ", [.fin (1/2), .fin 3, .fin (-4)]⟩]
    ⟨by decide, by decide, .inr ⟨by decide, .exact (by decide)⟩⟩
    (by
      intro q hq
      simp only [List.mem_cons, List.not_mem_nil, or_false] at hq
      rcases hq with rfl | rfl
      · exact ⟨by decide, C51_wellFormed.1 _⟩
      · exact ⟨by decide, Sample.rows_wellFormed (by decide) (by decide) (by decide)⟩)
    Sample.short_described
    (by
      intro n v hv hn
      cases n <;> first | (cases hv; done) | exact absurd (by decide) hn)
    ⟨1, by decide⟩ (by decide) (by decide) Sample.tableSheet_valid
    ⟨⟨1, 1, by decide, by rfl, .inl rfl⟩, by decide, by decide⟩
    (by
      intro c hc
      simp only [List.mem_cons, List.not_mem_nil, or_false] at hc
      rcases hc with rfl | rfl
      · exact ⟨1, 2, by decide, by rfl, by rfl⟩
      · exact ⟨1, 3, by decide, by rfl, by rfl⟩)
    (by intro a h; cases h; rfl)
    ⟨⟨_, rfl, rfl, rfl, rfl⟩, ⟨_, rfl, rfl, rfl, rfl⟩, trivial⟩ (by decide)

end Xls
