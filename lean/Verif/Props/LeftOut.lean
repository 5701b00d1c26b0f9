/-
Property C100: leaving parameters out. The full statement, that the answer is the same as with the values that
describe the sheet, is false when those are not the usual ones (`C100_changed_violated`).
-/
import Verif.Spec.LeftOut
import Verif.Spec.ScraperSamples
import Verif.Props.Call

set_option autoImplicit false

namespace Xls

open Spec

/-! ### Completions -/

theorem mem_getMissings {p : Params} {n : Name} : n ∈ p.getMissings ↔ LeftOut p n := by
  unfold Params.getMissings Params.isMissing LeftOut
  rw [List.mem_filter]
  have : hasNone (validValues n) = false ↔ n ∉ optionalNames := by cases n <;> decide
  cases h : p n <;> simp [Name.mem_all, PVal.isNone, this]

theorem completion_iff {p q : Params} {N : Nat} :
    Completion p N q ↔ ∃ choice : Name → PVal, (∀ n ∈ p.getMissings, choice n ∈ choices n) ∧
      q = withChoice p N p.getMissings choice := by
  constructor
  · intro h
    classical
    refine ⟨fun n => if hn : LeftOut p n then Classical.choose ((h n).1 hn) else .none, ?_, ?_⟩
    · intro n hn
      rw [mem_getMissings] at hn
      dsimp only
      rw [dif_pos hn]
      exact (Classical.choose_spec ((h n).1 hn)).1
    · funext n
      unfold withChoice
      split
      next hn =>
        rw [mem_getMissings] at hn
        dsimp only
        rw [dif_pos hn]
        exact (Classical.choose_spec ((h n).1 hn)).2
      next hn =>
        rw [mem_getMissings] at hn
        exact (h n).2 hn
  · rintro ⟨choice, h, rfl⟩ n
    unfold withChoice
    constructor
    · intro hn
      rw [if_pos (mem_getMissings.2 hn)]
      exact ⟨_, h n (mem_getMissings.2 hn), rfl⟩
    · intro hn
      rw [if_neg (fun k => hn (mem_getMissings.1 k))]

theorem usualCompletion_iff {p q : Params} {N : Nat} :
    UsualCompletion p N q ↔ q = withChoice p N p.getMissings usual := by
  constructor
  · intro h
    funext n
    unfold withChoice
    split
    next hn => exact (h n).1 (mem_getMissings.1 hn)
    next hn => exact (h n).2 (fun k => hn (mem_getMissings.2 k))
  · rintro rfl n
    unfold withChoice
    constructor
    · intro hn
      rw [if_pos (mem_getMissings.2 hn)]
    · intro hn
      rw [if_neg (fun k => hn (mem_getMissings.1 k))]

/-- Scraping either works or fails. -/
theorem works_or_fails (ext : Ext) (s : Sheet) (p : Params) :
    (∃ fs p', Works ext s p fs p') ∨ Fails ext s p := by
  rcases h : scrape ext p s with ⟨_ | fs, p', s'⟩
  · exact .inr ⟨_, _, _, h⟩
  · exact .inl ⟨fs, p', s', h⟩

/-- If one of a list works, there is a first one. -/
theorem first_that_works {ext : Ext} {s : Sheet} {qs : List Params}
    (h : ∃ q ∈ qs, ∃ fs p', Works ext s q fs p') :
    ∃ before q after fs p', qs = before ++ q :: after ∧ (∀ b ∈ before, Fails ext s b) ∧ Works ext s q fs p' := by
  induction qs with
  | nil => obtain ⟨q, hq, _⟩ := h; cases hq
  | cons x qs ih =>
    rcases works_or_fails ext s x with ⟨fs, p', hw⟩ | hf
    · exact ⟨[], x, qs, fs, p', rfl, by simp, hw⟩
    · obtain ⟨q, hq, fs, p', hw⟩ := h
      rcases List.mem_cons.1 hq with rfl | hq
      · obtain ⟨s1, h1⟩ := hw
        obtain ⟨e, p2, s2, h2⟩ := hf
        rw [h1] at h2
        cases h2
      · obtain ⟨before, q, after, fs, p', rfl, hb, hw⟩ := ih ⟨q, hq, fs, p', hw⟩
        refine ⟨x :: before, q, after, fs, p', rfl, ?_, hw⟩
        intro b hb'
        rcases List.mem_cons.1 hb' with rfl | hb'
        · exact hf
        · exact hb b hb'

/-! ### The scraper -/

/-- What the scraper gives for complete parameters. -/
theorem scraperFrames_complete {ext : Ext} {ws pr : Nat} {safe : Bool} {w : World}
    (hc : (w.params pr).isComplete = .ok true) (a : Answer) :
    (∃ r w', scraperFrames ext ws pr safe w = (.ok (a, r), w')) ↔
      ∃ fs p', Works ext (w.sheets ws) (w.params pr) fs p' ∧ a = .dfs (unwrap fs) := by
  unfold scraperFrames discoverParameters
  rw [hc]
  dsimp only
  unfold runOn
  rcases h : scrape ext (w.params pr) (w.sheets ws) with ⟨_ | fs, p', s'⟩
  · dsimp only
    constructor
    · rintro ⟨r, w', h⟩; cases h
    · rintro ⟨fs, p', ⟨s', h'⟩, _⟩
      rw [h] at h'
      cases h'
  · dsimp only
    constructor
    · rintro ⟨r, w', h'⟩
      cases h'
      exact ⟨fs, p', ⟨s', h⟩, rfl⟩
    · rintro ⟨fs', p2, ⟨s2, h'⟩, rfl⟩
      rw [h] at h'
      cases h'
      exact ⟨_, _, rfl⟩

theorem completion_complete {p q : Params} {N : Nat} (hp : GivenFor p N)
    (hd : ∀ n, LeftOut p n → Discoverable n) (h : Completion p N q) : q.isComplete = .ok true := by
  have h' := completion_iff.1 h
  by_cases hne : p.getMissings = []
  · obtain ⟨choice, _, rfl⟩ := h'
    refine complete_withChoice hp _ ?_
    have : withChoice p N p.getMissings choice = p := by
      funext n
      unfold withChoice
      rw [hne, if_neg (by simp)]
    rw [this]
    exact hp.num
  · obtain ⟨qs, e, _, hmem, _⟩ := C45_product p N hp hne fun n hn => hd n (mem_getMissings.1 hn)
    exact C45_only_complete p qs e q ((hmem q).2 h')

/-- What the scraper gives when parameters were left out: what the first completion that works gives. -/
theorem scraperFrames_leftOut {ext : Ext} {ws pr N : Nat} {w : World} (hp : GivenFor (w.params pr) N)
    (hd : ∀ n, LeftOut (w.params pr) n → Discoverable n) (hws : ws < w.nextSheet)
    (hwf : WellFormed (w.sheets ws)) :
    ∃ qs : List Params, (∀ q, q ∈ qs ↔ Completion (w.params pr) N q) ∧
      (∃ q, qs.head? = some q ∧ UsualCompletion (w.params pr) N q) ∧
      ∀ a, (∃ r w', scraperFrames ext ws pr false w = (.ok (a, r), w')) ↔
        ∃ before q after fs p', qs = before ++ q :: after ∧ (∀ b ∈ before, Fails ext (w.sheets ws) b) ∧
          Works ext (w.sheets ws) q fs p' ∧ a = .dfs (unwrap fs) := by
  by_cases hne : (w.params pr).getMissings = []
  · have hw : ∀ choice, withChoice (w.params pr) N (w.params pr).getMissings choice = w.params pr := by
      intro choice
      funext n
      unfold withChoice
      rw [hne, if_neg (by simp)]
    have hself : Completion (w.params pr) N (w.params pr) :=
      completion_iff.2 ⟨fun _ => .none, by rw [hne]; simp, (hw _).symm⟩
    refine ⟨[w.params pr], ?_, ⟨_, rfl, usualCompletion_iff.2 (hw _).symm⟩, ?_⟩
    · intro q
      rw [List.mem_singleton]
      constructor
      · rintro rfl; exact hself
      · intro h
        obtain ⟨choice, _, rfl⟩ := completion_iff.1 h
        exact hw choice
    · intro a
      rw [scraperFrames_complete (completion_complete hp hd hself)]
      constructor
      · rintro ⟨fs, p', h1, h2⟩
        exact ⟨[], _, [], fs, p', rfl, by simp, h1, h2⟩
      · rintro ⟨before, q, after, fs, p', e, _, h1, h2⟩
        have : q ∈ [w.params pr] := by rw [e]; simp
        rw [List.mem_singleton] at this
        subst this
        exact ⟨fs, p', h1, h2⟩
  · have hd' : ∀ n ∈ (w.params pr).getMissings, Discoverable n := fun n hn => hd n (mem_getMissings.1 hn)
    obtain ⟨qs, e, _, hmem, hhead⟩ := C45_product _ N hp hne hd'
    obtain ⟨after, e', hlen⟩ := two_attempts hp hne hd'
    have hqs : qs = withChoice (w.params pr) N (w.params pr).getMissings usual :: after := by
      rw [e] at e'
      cases e'
      rfl
    refine ⟨qs, fun q => (hmem q).trans completion_iff.symm, ⟨_, hhead, usualCompletion_iff.2 rfl⟩, ?_⟩
    rw [← hqs] at hlen
    intro a
    have hback : ∀ before q after fs p', qs = before ++ q :: after → (∀ b ∈ before, Fails ext (w.sheets ws) b) →
        Works ext (w.sheets ws) q fs p' →
        ∃ r w', scraperFrames ext ws pr false w = (.ok (.dfs (unwrap fs), r), w') := by
      rintro before q after fs p' rfl hb hwk
      obtain ⟨d, r, w', h1, h2, _⟩ := C46_first_success ext ws pr w before after q p' fs e hlen hws hwf hb hwk
      rw [givenAs_iff] at h2
      subst h2
      exact ⟨r, w', h1⟩
    constructor
    · rintro ⟨r, w', h⟩
      by_cases hex : ∃ q ∈ qs, ∃ fs p', Works ext (w.sheets ws) q fs p'
      · obtain ⟨before, q, after, fs, p', h1, h2, h3⟩ := first_that_works hex
        obtain ⟨r2, w2, h4⟩ := hback before q after fs p' h1 h2 h3
        rw [h] at h4
        cases h4
        exact ⟨before, q, after, fs, p', h1, h2, h3, rfl⟩
      · have hfail := C46_all_fail ext false ws pr w qs e (by
          rw [hqs] at hlen ⊢
          simp only [List.length_cons] at hlen ⊢
          omega) hws hwf (fun q hq => (works_or_fails ext (w.sheets ws) q).resolve_left fun h' => hex ⟨q, hq, h'⟩)
        rw [h] at hfail
        cases hfail
    · rintro ⟨before, q, after, fs, p', h1, h2, h3, rfl⟩
      exact hback before q after fs p' h1 h2 h3

/-! ### The call -/

/-- The same world with other `Parameters` objects. -/
def World.withP (w : World) (P : Nat → Params) (k : Nat) : World := { w with params := P, nextParams := k }

theorem copyBook_withP (P : Nat → Params) (k : Nat) : ∀ (wb : List Nat) (w : World),
    copyBook wb (w.withP P k) = ((copyBook wb w).1, (copyBook wb w).2.withP P k)
  | [], _ => rfl
  | r :: wb, w => by
    have e : ∀ w : World, copyBook (r :: wb) w = (w.nextSheet ::
        (copyBook wb (w.newSheet (copySheet (w.sheets r))).2).1,
        (copyBook wb (w.newSheet (copySheet (w.sheets r))).2).2) := fun _ => rfl
    have h := copyBook_withP P k wb (w.newSheet (copySheet (w.sheets r))).2
    rw [e, e]
    have h2 : ((w.withP P k).newSheet (copySheet ((w.withP P k).sheets r))).2 =
        (w.newSheet (copySheet (w.sheets r))).2.withP P k := rfl
    rw [h2, h]
    rfl

theorem Spec.SameBooks.eq_withP {w w2 : World} (h : SameBooks w w2) : w2 = w.withP w2.params w2.nextParams := by
  obtain ⟨h1, h2⟩ := h
  unfold World.withP
  rw [← h1, ← h2]

/-- Which sheet is scraped does not depend on the parameters. -/
theorem call_sheet (ext : Ext) (wb : List Nat) (name : Str) (safe preserve : Bool) (w : World)
    (hwb : ∀ r ∈ wb, r < w.nextSheet ∧ WellFormed (w.sheets r)) :
    (∀ P k pr a title, ¬ gives (getDataFrames ext wb (.object pr) name safe preserve (w.withP P k)) a title) ∨
    ∃ (ws : Nat) (w1 : World) (t : Str), ws < w1.nextSheet ∧ WellFormed (w1.sheets ws) ∧
      ∀ P k pr a title, gives (getDataFrames ext wb (.object pr) name safe preserve (w.withP P k)) a title ↔
        title = t ∧ ∃ r w', scraperFrames ext ws pr safe (w1.withP P k) = (.ok (a, r), w') := by
  have hpre : ∃ (wb1 : List Nat) (w1 : World), (∀ P k, (if preserve then copyBook wb (w.withP P k) else (wb, w.withP P k)) =
        (wb1, w1.withP P k)) ∧
      ∀ r ∈ wb1, r < w1.nextSheet ∧ WellFormed (w1.sheets r) := by
    cases preserve with
    | false => exact ⟨wb, w, fun _ _ => rfl, hwb⟩
    | true =>
      obtain ⟨c1, c2, c3, c4, c5, c6⟩ := copyBook_spec wb w hwb
      refine ⟨_, _, fun P k => by rw [if_pos rfl]; exact copyBook_withP P k wb w, ?_⟩
      intro r hr
      constructor
      · rw [c1, List.mem_range'] at hr
        obtain ⟨i, hi, hx⟩ := hr
        omega
      · have : (copyBook wb w).2.sheets r ∈ wb.map w.sheets := by
          rw [← c6]
          exact List.mem_map_of_mem hr
        obtain ⟨q, hq, e⟩ := List.mem_map.1 this
        rw [← e]
        exact (hwb q hq).2
  obtain ⟨wb1, w1, e, hwb1⟩ := hpre
  have hg : ∀ P k, (∀ name, sheetNamed wb1 name (w1.withP P k) = sheetNamed wb1 name w1) ∧
      (wb1.map fun r => ((w1.withP P k).sheets r).title) = wb1.map fun r => (w1.sheets r).title :=
    fun _ _ => ⟨fun _ => rfl, rfl⟩
  unfold getDataFrames gives
  cases hn : chooseName ext name (wb1.map fun r => (w1.sheets r).title) with
  | error er =>
    left
    rintro P k pr a title ⟨r, w', h⟩
    rw [e] at h
    dsimp only at h
    rw [(hg P k).2, hn] at h
    cases h
  | ok t =>
    cases hs : sheetNamed wb1 t w1 with
    | error er =>
      left
      rintro P k pr a title ⟨r, w', h⟩
      rw [e] at h
      dsimp only at h
      rw [(hg P k).2, hn] at h
      dsimp only at h
      rw [(hg P k).1, hs] at h
      cases h
    | ok ws =>
      right
      have := hwb1 ws (sheetNamed_mem hs)
      refine ⟨ws, w1, t, this.1, this.2, ?_⟩
      intro P k pr a title
      rw [e]
      dsimp only
      rw [(hg P k).2, hn]
      dsimp only
      rw [(hg P k).1, hs]
      dsimp only [givenParams]
      rcases scraperFrames ext ws pr safe (w1.withP P k) with ⟨_ | ⟨a', r'⟩, w2⟩
      · dsimp only
        constructor
        · rintro ⟨r, w', h⟩; cases h
        · rintro ⟨_, r, w', h⟩; cases h
      · dsimp only
        constructor
        · rintro ⟨r, w', h⟩
          cases h
          exact ⟨rfl, _, _, rfl⟩
        · rintro ⟨rfl, r, w', h⟩
          cases h
          exact ⟨_, _, rfl⟩

/-- Two calls on the same books, one with a completion of the parameters of the other. -/
theorem two_calls {ext : Ext} {wb : List Nat} {w : World} {name : Str} {preserve : Bool} {pr N : Nat}
    (hwb : ∀ r ∈ wb, r < w.nextSheet ∧ WellFormed (w.sheets r)) (hp : GivenFor (w.params pr) N)
    (hd : ∀ n, LeftOut (w.params pr) n → Discoverable n) :
    (∀ a title, ¬ gives (getDataFrames ext wb (.object pr) name false preserve w) a title ∧
      ∀ w2 qr, SameBooks w w2 → ¬ gives (getDataFrames ext wb (.object qr) name false preserve w2) a title) ∨
    ∃ (s : Sheet) (t : Str) (qs : List Params), (∀ q, q ∈ qs ↔ Completion (w.params pr) N q) ∧
      (∃ q, qs.head? = some q ∧ UsualCompletion (w.params pr) N q) ∧
      (∀ a title, gives (getDataFrames ext wb (.object pr) name false preserve w) a title ↔ title = t ∧
        ∃ before q after fs p', qs = before ++ q :: after ∧ (∀ b ∈ before, Fails ext s b) ∧
          Works ext s q fs p' ∧ a = .dfs (unwrap fs)) ∧
      ∀ w2 qr, SameBooks w w2 → Completion (w.params pr) N (w2.params qr) → ∀ a title,
        (gives (getDataFrames ext wb (.object qr) name false preserve w2) a title ↔ title = t ∧
          ∃ fs p', Works ext s (w2.params qr) fs p' ∧ a = .dfs (unwrap fs)) := by
  rcases call_sheet ext wb name false preserve w hwb with hno | ⟨ws, w1, t, hws, hwf, hiff⟩
  · left
    intro a title
    refine ⟨hno w.params w.nextParams pr a title, ?_⟩
    intro w2 qr hs
    rw [hs.eq_withP]
    exact hno _ _ _ _ _
  · right
    obtain ⟨qs, hmem, hhead, hans⟩ := scraperFrames_leftOut (ext := ext) (ws := ws) (pr := pr)
      (w := w1.withP w.params w.nextParams) hp hd hws hwf
    refine ⟨w1.sheets ws, t, qs, hmem, hhead, ?_, ?_⟩
    · intro a title
      have := hiff w.params w.nextParams pr a title
      rw [hans] at this
      exact this
    · intro w2 qr hs hq a title
      have h1 := hiff w2.params w2.nextParams qr a title
      rw [← hs.eq_withP, scraperFrames_complete (w := w1.withP w2.params w2.nextParams)
        (completion_complete hp hd hq)] at h1
      exact h1

/-! ### The property -/

/-- C100. If the call with the usual values for what was left out gives an answer, the call without them gives
the same answer. -/
theorem C100_usual_partial (ext : Ext) (wb : List Nat) (w w2 : World) (name : Str) (preserve : Bool) (pr qr N : Nat)
    (hwb : ∀ r ∈ wb, r < w.nextSheet ∧ WellFormed (w.sheets r)) (hp : GivenFor (w.params pr) N)
    (hd : ∀ n, LeftOut (w.params pr) n → Discoverable n) (hs : SameBooks w w2)
    (hq : UsualCompletion (w.params pr) N (w2.params qr)) (a : Answer) (title : Str)
    (h : gives (getDataFrames ext wb (.object qr) name false preserve w2) a title) :
    gives (getDataFrames ext wb (.object pr) name false preserve w) a title := by
  rcases two_calls (ext := ext) (name := name) (preserve := preserve) hwb hp hd with hno |
    ⟨s, t, qs, hmem, ⟨q, hhead, hus⟩, hans, hcomp⟩
  · exact absurd h ((hno a title).2 w2 qr hs)
  have : q = w2.params qr := by rw [usualCompletion_iff.1 hus, usualCompletion_iff.1 hq]
  subst this
  rw [hcomp w2 qr hs ((hmem _).1 (List.mem_of_mem_head? hhead))] at h
  rw [hans]
  obtain ⟨ht, fs, p', h1, h2⟩ := h
  cases qs with
  | nil => cases hhead
  | cons x qs =>
    cases hhead
    exact ⟨ht, [], _, qs, fs, p', rfl, by simp, h1, h2⟩

/-- C100. If the call with any of the possible values for what was left out gives an answer, so does the call
without them. -/
theorem C100_some_partial (ext : Ext) (wb : List Nat) (w w2 : World) (name : Str) (preserve : Bool) (pr qr N : Nat)
    (hwb : ∀ r ∈ wb, r < w.nextSheet ∧ WellFormed (w.sheets r)) (hp : GivenFor (w.params pr) N)
    (hd : ∀ n, LeftOut (w.params pr) n → Discoverable n) (hs : SameBooks w w2)
    (hq : Completion (w.params pr) N (w2.params qr)) (a : Answer) (title : Str)
    (h : gives (getDataFrames ext wb (.object qr) name false preserve w2) a title) :
    ∃ a', gives (getDataFrames ext wb (.object pr) name false preserve w) a' title := by
  rcases two_calls (ext := ext) (name := name) (preserve := preserve) hwb hp hd with hno |
    ⟨s, t, qs, hmem, _, hans, hcomp⟩
  · exact absurd h ((hno a title).2 w2 qr hs)
  rw [hcomp w2 qr hs hq] at h
  obtain ⟨ht, fs, p', h1, _⟩ := h
  obtain ⟨before, q, after, fs', p2, e1, e2, e3⟩ := first_that_works ⟨_, (hmem _).2 hq, fs, p', h1⟩
  refine ⟨.dfs (unwrap fs'), ?_⟩
  rw [hans]
  exact ⟨ht, before, q, after, fs', p2, e1, e2, e3, rfl⟩

/-- C100. An answer is never made up: it is what the call with some of the possible values gives. -/
theorem C100_one_of_partial (ext : Ext) (wb : List Nat) (w : World) (name : Str) (preserve : Bool) (pr N : Nat)
    (hwb : ∀ r ∈ wb, r < w.nextSheet ∧ WellFormed (w.sheets r)) (hp : GivenFor (w.params pr) N)
    (hd : ∀ n, LeftOut (w.params pr) n → Discoverable n) (a : Answer) (title : Str)
    (h : gives (getDataFrames ext wb (.object pr) name false preserve w) a title) :
    ∃ q, Completion (w.params pr) N q ∧ ∀ w2 qr, SameBooks w w2 → w2.params qr = q →
      gives (getDataFrames ext wb (.object qr) name false preserve w2) a title := by
  rcases two_calls (ext := ext) (name := name) (preserve := preserve) hwb hp hd with hno |
    ⟨s, t, qs, hmem, _, hans, hcomp⟩
  · exact absurd h (hno a title).1
  rw [hans] at h
  obtain ⟨ht, before, q, after, fs, p', e1, e2, e3, e4⟩ := h
  have hq : Completion (w.params pr) N q := (hmem q).1 (by rw [e1]; simp)
  refine ⟨q, hq, ?_⟩
  rintro w2 qr hs rfl
  rw [hcomp w2 qr hs hq]
  exact ⟨ht, fs, p', e3, e4⟩

/-! ### Examples -/

namespace Sample

/-- Three months of two series with an empty row in between. -/
def blankSheet : Sheet := rows
  [[.str c!"fecha", .str c!"PBI", .str c!"IPC"],
   [day 2000 1 1, .int 10, .float (.fin 5)],
   [day 2000 2 1, .int 11, .int 3],
   [.none, .none, .none],
   [day 2000 3 1, .int 12, .int (-4)]]

/-- Parameters for it that say whether rows are empty. -/
def blankTable (b : Bool) : Params := fun n =>
  if n = .blankRows then .list [.bool b, .bool b] else gapTable false n

/-- The same, without saying it. -/
def blankUnknown : Params := fun n => if n = .blankRows then .none else gapTable false n

theorem blank_wellFormed : WellFormed blankSheet := rows_wellFormed (by decide) (by decide) (by decide)

/-- Two objects: the one without the parameter and the one with it. -/
def blankWorld (b : Bool) (s : Sheet) : World :=
  ⟨fun _ => s, 1, fun r => if r = 0 then blankUnknown else blankTable b, 2⟩

theorem blankUnknown_given : GivenFor blankUnknown 2 where
  num := by decide
  pos := by decide
  each := by
    intro n h1 h2
    cases n <;> first
      | exact absurd rfl h2
      | exact absurd (by decide) h1
      | exact .inl rfl
      | exact .inr ⟨_, rfl, rfl⟩
  timeHeaderC := ⟨_, rfl, by decide⟩

theorem blankUnknown_leftOut (n : Name) : LeftOut blankUnknown n ↔ n = .blankRows := by
  constructor
  · rintro ⟨h, _⟩
    cases n <;> first | rfl | cases h
  · rintro rfl
    exact ⟨rfl, by decide⟩

theorem blankUnknown_discoverable (n : Name) (h : LeftOut blankUnknown n) : Discoverable n := by
  rw [blankUnknown_leftOut] at h
  subst h
  simp [Discoverable, choices]

theorem blankTable_completion (b : Bool) : Completion blankUnknown 2 (blankTable b) := by
  intro n
  rw [blankUnknown_leftOut]
  constructor
  · rintro rfl
    exact ⟨.bool b, by cases b <;> simp [choices], rfl⟩
  · intro h
    unfold blankTable blankUnknown
    rw [if_neg h, if_neg h]

theorem blankTable_usual : UsualCompletion blankUnknown 2 (blankTable false) := by
  intro n
  rw [blankUnknown_leftOut]
  constructor
  · rintro rfl
    rfl
  · intro h
    unfold blankTable blankUnknown
    rw [if_neg h, if_neg h]

/-- The number of rows of the only data frame of an answer. -/
def rowsOf : Except Err (Answer × Str × Nat) × World → Option Nat
  | (.ok (.dfs (.one f), _, _), _) => some f.index.length
  | _ => none

end Sample

theorem blank_books {b : Bool} {s : Sheet} (h : WellFormed s) :
    ∀ r ∈ [0], r < (Sample.blankWorld b s).nextSheet ∧ WellFormed ((Sample.blankWorld b s).sheets r) := by
  intro r hr
  rw [List.mem_singleton] at hr
  subst hr
  exact ⟨Nat.zero_lt_one, h⟩

theorem full_wellFormed : WellFormed Sample.fullSheet :=
  Sample.rows_wellFormed (by decide) (by decide) (by decide)

/-- A table without empty rows: nothing is said about them and the answer is the one without them. -/
example (a : Answer) (title : Str)
    (h : gives (getDataFrames Sample.ext0 [0] (.object 1) [] false true
      (Sample.blankWorld false Sample.fullSheet)) a title) :
    gives (getDataFrames Sample.ext0 [0] (.object 0) [] false true (Sample.blankWorld false Sample.fullSheet))
      a title :=
  C100_usual_partial Sample.ext0 [0] _ _ [] true 0 1 2 (blank_books full_wellFormed) Sample.blankUnknown_given
    Sample.blankUnknown_discoverable ⟨rfl, rfl⟩ Sample.blankTable_usual a title h

example : Sample.rowsOf (getDataFrames Sample.ext0 [0] (.object 1) [] false true
    (Sample.blankWorld false Sample.fullSheet)) = some 3 := by decide +kernel

example (a : Answer) (title : Str)
    (h : gives (getDataFrames Sample.ext0 [0] (.object 1) [] false true
      (Sample.blankWorld true Sample.blankSheet)) a title) :
    ∃ a', gives (getDataFrames Sample.ext0 [0] (.object 0) [] false true
      (Sample.blankWorld true Sample.blankSheet)) a' title :=
  C100_some_partial Sample.ext0 [0] _ _ [] true 0 1 2 (blank_books Sample.blank_wellFormed)
    Sample.blankUnknown_given Sample.blankUnknown_discoverable ⟨rfl, rfl⟩ (Sample.blankTable_completion true)
    a title h

example (a : Answer) (title : Str)
    (h : gives (getDataFrames Sample.ext0 [0] (.object 0) [] false true
      (Sample.blankWorld true Sample.blankSheet)) a title) :
    ∃ q, Completion Sample.blankUnknown 2 q ∧ ∀ w2 qr, SameBooks (Sample.blankWorld true Sample.blankSheet) w2 →
      w2.params qr = q → gives (getDataFrames Sample.ext0 [0] (.object qr) [] false true w2) a title :=
  C100_one_of_partial Sample.ext0 [0] _ [] true 0 2 (blank_books Sample.blank_wellFormed)
    Sample.blankUnknown_given Sample.blankUnknown_discoverable a title h

/-- C100. The answer is not always that of the values that describe the sheet: with an empty row in the table
and nothing said about empty rows, the rows after it are lost, although saying it gives them all. -/
theorem C100_changed_violated :
    ∃ (ext : Ext) (w : World) (pr qr N : Nat), WellFormed (w.sheets 0) ∧ GivenFor (w.params pr) N ∧
      (∀ n, LeftOut (w.params pr) n → Discoverable n) ∧ Completion (w.params pr) N (w.params qr) ∧
      Sample.rowsOf (getDataFrames ext [0] (.object qr) [] false true w) = some 3 ∧
      Sample.rowsOf (getDataFrames ext [0] (.object pr) [] false true w) = some 2 :=
  ⟨Sample.ext0, Sample.blankWorld true Sample.blankSheet, 0, 1, 2, Sample.blank_wellFormed,
    Sample.blankUnknown_given, Sample.blankUnknown_discoverable, Sample.blankTable_completion true,
    by decide +kernel, by decide +kernel⟩

end Xls
