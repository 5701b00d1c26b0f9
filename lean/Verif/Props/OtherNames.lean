/-
C120: the parameters for names matter only for the names of columns.
-/
import Verif.Lemmas.OtherNames
import Verif.Lemmas.AlikePairs

set_option autoImplicit false

namespace Xls

open Spec

/-- C120 for parameters that are complete. -/
theorem C120_names (ext : Ext) {p q : Params} {xs ys : List SParams} {s : Sheet} (hp : HasSeries p xs)
    (hq : HasSeries q ys) (h : List.Forall₂ OtherName xs ys) (hs : WellFormed s) (hx : ∀ x ∈ xs, Nameable xs s x)
    (hy : ∀ y ∈ ys, Nameable ys s y) :
    ((∃ e, (scrape ext p s).1 = .error e ∧ (scrape ext q s).1 = .error e) ∨
      ∃ fs gs, (scrape ext p s).1 = .ok fs ∧ (scrape ext q s).1 = .ok gs ∧ List.Forall₂ SameButNames fs gs) ∧
    (scrape ext q s).2.2 = (scrape ext p s).2.2 := by
  have key := scrape_names (ext := ext) hp hq h hs hx hy
  refine ⟨?_, key.2⟩
  rcases key.1 with h | ⟨x, y, k1, k2, k3⟩
  · exact .inl h
  · refine .inr ⟨x, y, k1, k2, k3.imp fun f g h => ⟨h.freq, h.index, ?_, h.columns⟩⟩
    have h4 := h.data
    rw [show List.Forall₂ (Eq (α := Num)) = Eq from List.forall₂_eq_eq_eq, List.forall₂_eq_eq_eq] at h4
    exact h4.symm

/-- C120 for calls, in safe mode or not. -/
theorem C120_call (ext : Ext) (wb : List Nat) (w w2 : World) (given given2 : Given) (name : Str)
    (safe preserve preserve2 : Bool) (r : Nat) {p q : Params} {xs ys : List SParams} (hreq : Requested ext wb w name r)
    (hreq2 : Requested ext wb w2 name r) (hsheet : w2.sheets r = w.sheets r)
    (hwb : ∀ k ∈ wb, k < w.nextSheet ∧ WellFormed (w.sheets k))
    (hwb2 : ∀ k ∈ wb, k < w2.nextSheet ∧ WellFormed (w2.sheets k)) (hgiven : GivenWith given w p)
    (hgiven2 : GivenWith given2 w2 q) (hp : HasSeries p xs) (hq : HasSeries q ys) (hne : xs ≠ [])
    (h : List.Forall₂ OtherName xs ys) (hx : ∀ x ∈ xs, Nameable xs (w.sheets r) x)
    (hy : ∀ y ∈ ys, Nameable ys (w.sheets r) y) :
    (∃ e, outcome (getDataFrames ext wb given name safe preserve w) = .error e ∧
      outcome (getDataFrames ext wb given2 name safe preserve2 w2) = .error e) ∨
    ∃ d d', outcome (getDataFrames ext wb given name safe preserve w) = .ok (.dfs d, (w.sheets r).title) ∧
      outcome (getDataFrames ext wb given2 name safe preserve2 w2) = .ok (.dfs d', (w.sheets r).title) ∧
      DfsRel SameButNames d d' := by
  have hne2 : ys ≠ [] := by
    rintro rfl
    cases h
    exact hne rfl
  have hc := complete_series hp hne
  have hc2 := complete_series hq hne2
  have hwf := (hwb r hreq.1).2
  obtain ⟨ws, pr, w1, a1, a2, a3, a4⟩ := call_outcome (safe := safe) (preserve := preserve) hreq hwb hgiven
  obtain ⟨ws2, pr2, w12, b1, b2, b3, b4⟩ := call_outcome (safe := safe) (preserve := preserve2) hreq2 hwb2 hgiven2
  rw [a4, b4, hsheet]
  have : AlikeAnswers SameButNames (scraperFrames ext ws pr safe w1).1 (scraperFrames ext ws2 pr2 safe w12).1 := by
    unfold scraperFrames discoverParameters
    rw [a3, b3, hc, hc2]
    refine runOn_like (ext := ext) (w := w1) (w2 := w12) ?_
    rw [a1, b1, a3, b3, hsheet]
    exact (C120_names ext hp hq h hwf hx hy).1
  rcases this with ⟨e, k1, k2⟩ | ⟨d, d', k, k', k1, k2, k3⟩
  · rw [k1, k2]
    exact .inl ⟨_, rfl, rfl⟩
  · rw [k1, k2]
    exact .inr ⟨d, d', rfl, rfl, k3⟩

/-- C120 for calls without safe mode that may leave parameters out: the same ones are left out in both calls. -/
theorem C120_left_out (ext : Ext) (wb : List Nat) (w w2 : World) (given given2 : Given) (name : Str)
    (preserve preserve2 : Bool) (r : Nat) {p p' : Params} (N : Nat) (hreq : Requested ext wb w name r)
    (hreq2 : Requested ext wb w2 name r) (hsheet : w2.sheets r = w.sheets r)
    (hwb : ∀ k ∈ wb, k < w.nextSheet ∧ WellFormed (w.sheets k))
    (hwb2 : ∀ k ∈ wb, k < w2.nextSheet ∧ WellFormed (w2.sheets k)) (hgiven : GivenWith given w p)
    (hgiven2 : GivenWith given2 w2 p') (hp : GivenFor p N) (hp' : GivenFor p' N)
    (hd : ∀ n, LeftOut p n → Discoverable n) (hsame : ∀ n, LeftOut p' n ↔ LeftOut p n)
    (h : ∀ q q', Completion p N q → Completion p' N q' → (∀ n, LeftOut p n → q' n = q n) →
      ∃ xs ys, HasSeries q xs ∧ HasSeries q' ys ∧ List.Forall₂ OtherName xs ys ∧
        (∀ x ∈ xs, Nameable xs (w.sheets r) x) ∧ ∀ y ∈ ys, Nameable ys (w.sheets r) y) :
    (∃ e, outcome (getDataFrames ext wb given name false preserve w) = .error e ∧
      outcome (getDataFrames ext wb given2 name false preserve2 w2) = .error e) ∨
    ∃ d d', outcome (getDataFrames ext wb given name false preserve w) = .ok (.dfs d, (w.sheets r).title) ∧
      outcome (getDataFrames ext wb given2 name false preserve2 w2) = .ok (.dfs d', (w.sheets r).title) ∧
      DfsRel SameButNames d d' := by
  have := calls_like_pairs (ext := ext) (Q := SameButNames) (preserve := preserve) (preserve2 := preserve2) hreq hreq2 hwb
    hwb2 hgiven hgiven2 (pairedAttempts_choices hp hp' hd hsame fun q q' h1 h2 h3 => by
      obtain ⟨xs, ys, k1, k2, k3, k4, k5⟩ := h q q' h1 h2 h3
      rw [hsheet]
      exact (C120_names ext k1 k2 k3 (hwb r hreq.1).2 k4 k5).1)
  rw [hsheet] at this
  exact this

/-! ### Example -/

namespace Sample

/-- The quarters; the first series has a second header, the second series a name and a context. -/
def namedQuarters : List SParams :=
  [{ quarterSeries c!"B1" with composedHeaders := some [c!"C1"] },
    { quarterSeries c!"C1" with seriesName := some c!"Precios", context := some [c!"Mundo"] }]

theorem first_column_dates {sq : SParams} (h : sq.timeHeader = .single c!"A1") (ha : sq.alignment = .vertical) {r c : Int}
    (hd : InDates sq r c) : c = 1 := by
  obtain ⟨a, k1, hr, hc, pos, k2, k3⟩ := hd
  rw [h] at k1
  have k1 : a = c!"A1" := by simpa [timeCoords] using k1
  subst k1
  have e : coordOf c!"A1" = .ok (1, 1) := by decide
  rw [e] at k2
  cases k2
  rw [ha] at k3
  exact k3.2

theorem quarters_nameable : ∀ x ∈ [quarterSeries c!"B1", quarterSeries c!"C1"],
    Nameable [quarterSeries c!"B1", quarterSeries c!"C1"] quarterSheet x := by
  intro x hx
  simp only [List.mem_cons, List.not_mem_nil, or_false] at hx
  rcases hx with rfl | rfl
  · exact ⟨⟨1, 2, by decide⟩, fun _ a ha => by cases ha⟩
  · exact ⟨⟨1, 3, by decide⟩, fun _ a ha => by cases ha⟩

theorem named_nameable : ∀ x ∈ namedQuarters, Nameable namedQuarters quarterSheet x := by
  intro x hx
  unfold namedQuarters at hx
  simp only [List.mem_cons, List.not_mem_nil, or_false] at hx
  rcases hx with rfl | rfl
  · refine ⟨⟨1, 2, by decide⟩, fun _ a ha => ?_⟩
    have ha : a = c!"C1" := by simpa using ha
    subst ha
    refine ⟨1, 3, by decide, trivial, fun sq hsq hd => ?_⟩
    unfold namedQuarters at hsq
    simp only [List.mem_cons, List.not_mem_nil, or_false] at hsq
    have : (3 : Int) = 1 := by
      rcases hsq with rfl | rfl <;> exact first_column_dates rfl rfl hd
    omega
  · exact ⟨⟨1, 3, by decide⟩, fun hu => by rcases hu with hu | hu <;> cases hu⟩

end Sample

/-- Whatever the quarters give, the quarters with other names give apart from names. -/
example (safe preserve : Bool) (d : Dfs) (title : Str)
    (h : outcome (getDataFrames Sample.ext0 [0] (.object 0) [] safe preserve (Sample.world Sample.quarterSheet
      (Sample.paramsOf [Sample.quarterSeries c!"B1", Sample.quarterSeries c!"C1"]))) = .ok (.dfs d, title)) :
    ∃ d', outcome (getDataFrames Sample.ext0 [0] (.object 0) [] safe preserve (Sample.world Sample.quarterSheet
      (Sample.paramsOf Sample.namedQuarters))) = .ok (.dfs d', title) ∧ DfsRel SameButNames d d' := by
  have hs : WellFormed Sample.quarterSheet := Sample.rows_wellFormed (by decide) (by decide) (by decide)
  have h1 : ∀ p : Params, ∀ q ∈ [0], q < (Sample.world Sample.quarterSheet p).nextSheet ∧
      WellFormed ((Sample.world Sample.quarterSheet p).sheets q) :=
    fun p q hq => by rw [List.mem_singleton] at hq; subst hq; exact ⟨Nat.one_pos, hs⟩
  rcases C120_call Sample.ext0 [0]
    (Sample.world Sample.quarterSheet (Sample.paramsOf [Sample.quarterSeries c!"B1", Sample.quarterSeries c!"C1"]))
    (Sample.world Sample.quarterSheet (Sample.paramsOf Sample.namedQuarters))
    (.object 0) (.object 0) [] safe preserve preserve 0 ⟨by simp, by simp, .inl ⟨rfl, rfl⟩⟩
    ⟨by simp, by simp, .inl ⟨rfl, rfl⟩⟩ rfl (h1 _) (h1 _) (.inl ⟨0, rfl, rfl⟩) (.inl ⟨0, rfl, rfl⟩)
    (p := Sample.paramsOf [Sample.quarterSeries c!"B1", Sample.quarterSeries c!"C1"])
    (q := Sample.paramsOf Sample.namedQuarters) (fun _ => rfl) (fun _ => rfl) (by simp)
    (.cons rfl (.cons rfl .nil)) Sample.quarters_nameable Sample.named_nameable with ⟨e, k, -⟩ | ⟨d1, d2, k1, k2, k3⟩
  · rw [h] at k
    cases k
  · rw [h] at k1
    cases k1
    exact ⟨d2, k2, k3⟩

/-- What the quarters with other names give. -/
example : outcome (getDataFrames Sample.ext0 [0] (.object 0) [] false true (Sample.world Sample.quarterSheet
      (Sample.paramsOf Sample.namedQuarters))) =
    .ok (.dfs (.one ⟨c!"QS-JAN", [⟨2000, 7, 1, 0⟩, ⟨2000, 10, 1, 0⟩, ⟨2001, 1, 1, 0⟩], [c!"IPC PBI", c!"Precios"],
      [[.fin 10, .fin 11, .fin 12], [.fin 1, .fin 2, .fin 3]]⟩), c!"S") := by
  decide +kernel

namespace Sample

def namedUnknown : Params := fun n => if n = .blankRows then .none else paramsOf namedQuarters n

theorem namedUnknown_given : GivenFor namedUnknown 2 ∧ ∀ n, LeftOut namedUnknown n ↔ n = .blankRows := by
  refine ⟨⟨by decide, by decide, ?_, ⟨_, rfl, by decide⟩⟩, ?_⟩
  · intro n h1 h2
    cases n <;> first
      | exact absurd rfl h2
      | exact absurd (by decide) h1
      | exact .inl rfl
      | exact .inr ⟨_, rfl, rfl⟩
  · intro n
    constructor
    · rintro ⟨h, _⟩
      cases n <;> first | rfl | cases h
    · rintro rfl
      exact ⟨rfl, by decide⟩

end Sample

/-- The quarters with and without names, nothing said about blank rows. -/
example (d : Dfs) (title : Str)
    (h : outcome (getDataFrames Sample.ext0 [0] (.object 0) [] false true
      (Sample.world Sample.quarterSheet Sample.twoUnknown)) = .ok (.dfs d, title)) :
    ∃ d', outcome (getDataFrames Sample.ext0 [0] (.object 0) [] false true
      (Sample.world Sample.quarterSheet Sample.namedUnknown)) = .ok (.dfs d', title) ∧ DfsRel SameButNames d d' := by
  obtain ⟨g1, l1⟩ := Sample.pairUnknown_given (.inl rfl)
  obtain ⟨g2, l2⟩ := Sample.namedUnknown_given
  have hs : WellFormed Sample.quarterSheet := Sample.rows_wellFormed (by decide) (by decide) (by decide)
  have hw : ∀ p : Params, ∀ q ∈ [0], q < (Sample.world Sample.quarterSheet p).nextSheet ∧
      WellFormed ((Sample.world Sample.quarterSheet p).sheets q) :=
    fun p q hq => by rw [List.mem_singleton] at hq; subst hq; exact ⟨Nat.one_pos, hs⟩
  have hall : ∀ q q', Completion Sample.twoUnknown 2 q → Completion Sample.namedUnknown 2 q' →
      (∀ n, LeftOut Sample.twoUnknown n → q' n = q n) → ∃ xs ys, HasSeries q xs ∧ HasSeries q' ys ∧
        List.Forall₂ OtherName xs ys ∧ (∀ x ∈ xs, Nameable xs Sample.quarterSheet x) ∧
        ∀ y ∈ ys, Nameable ys Sample.quarterSheet y := by
    intro q q' h1 h2 h3
    obtain ⟨v, hv, hq⟩ := (h1 .blankRows).1 ((l1 _).2 rfl)
    have hq' := h3 .blankRows ((l1 _).2 rfl)
    obtain ⟨b, rfl⟩ : ∃ b, v = .bool b := by
      simp only [choices, List.mem_cons, List.not_mem_nil, or_false] at hv
      rcases hv with rfl | rfl
      exacts [⟨true, rfl⟩, ⟨false, rfl⟩]
    refine ⟨[Sample.quarterSeries c!"B1", Sample.quarterSeries c!"C1"].map fun sp => { sp with blankRows := b },
      Sample.namedQuarters.map fun sp => { sp with blankRows := b }, ?_, ?_, ?_, ?_, ?_⟩
    · intro n
      by_cases hn : n = .blankRows
      · subst hn
        exact hq
      · rw [(h1 n).2 fun hl => hn ((l1 n).1 hl)]
        unfold Sample.twoUnknown
        rw [if_neg hn]
        cases n <;> first | rfl | exact absurd rfl hn
    · intro n
      by_cases hn : n = .blankRows
      · subst hn
        rw [hq', hq]
        rfl
      · rw [(h2 n).2 fun hl => hn ((l2 n).1 hl)]
        unfold Sample.namedUnknown
        rw [if_neg hn]
        cases n <;> first | rfl | exact absurd rfl hn
    · exact .cons (by rfl) (.cons (by rfl) .nil)
    · intro x hx
      obtain ⟨y, hy, rfl⟩ := List.mem_map.1 hx
      have := Sample.quarters_nameable y hy
      refine ⟨this.header, fun hu a ha => ?_⟩
      obtain ⟨r, c, k1, k2, k3⟩ := this.composed hu a ha
      refine ⟨r, c, k1, k2, fun sq hsq => ?_⟩
      obtain ⟨z, hz, rfl⟩ := List.mem_map.1 hsq
      exact k3 z hz
    · intro x hx
      obtain ⟨y, hy, rfl⟩ := List.mem_map.1 hx
      have := Sample.named_nameable y hy
      refine ⟨this.header, fun hu a ha => ?_⟩
      obtain ⟨r, c, k1, k2, k3⟩ := this.composed hu a ha
      refine ⟨r, c, k1, k2, fun sq hsq => ?_⟩
      obtain ⟨z, hz, rfl⟩ := List.mem_map.1 hsq
      exact k3 z hz
  rcases C120_left_out Sample.ext0 [0] (Sample.world Sample.quarterSheet Sample.twoUnknown)
    (Sample.world Sample.quarterSheet Sample.namedUnknown) (.object 0) (.object 0) [] true true 0
    (p := Sample.twoUnknown) (p' := Sample.namedUnknown) 2 ⟨by simp, by simp, .inl ⟨rfl, rfl⟩⟩
    ⟨by simp, by simp, .inl ⟨rfl, rfl⟩⟩ rfl (hw _) (hw _) (.inl ⟨0, rfl, rfl⟩) (.inl ⟨0, rfl, rfl⟩) g1 g2
    (fun n hn => by
      rw [l1] at hn
      subst hn
      simp [Discoverable, choices])
    (fun n => by rw [l1, l2]) hall with ⟨e, k, -⟩ | ⟨d1, d2, k1, k2, k3⟩
  · rw [h] at k
    cases k
  · rw [h] at k1
    cases k1
    exact ⟨d2, k2, k3⟩

/-- A further header must be a text: with a number there, the series is read if a name is given for it, and not read if
none is given. -/
theorem C120_number_header :
    (∃ d, outcome (getDataFrames Sample.ext0 [0] (.object 0) [] false true (Sample.world Sample.quarterSheet
      (Sample.paramsOf [{ Sample.quarterSeries c!"B1" with
        seriesName := some c!"PBI", composedHeaders := some [c!"C2"] }]))) = .ok (.dfs d, c!"S")) ∧
    outcome (getDataFrames Sample.ext0 [0] (.object 0) [] false true (Sample.world Sample.quarterSheet
      (Sample.paramsOf [{ Sample.quarterSeries c!"B1" with composedHeaders := some [c!"C2"] }]))) =
      .error .attributeError := by
  refine ⟨⟨.one ⟨c!"QS-JAN", [⟨2000, 7, 1, 0⟩, ⟨2000, 10, 1, 0⟩, ⟨2001, 1, 1, 0⟩], [c!"PBI"],
      [[.fin 10, .fin 11, .fin 12]]⟩, ?_⟩, ?_⟩ <;> decide +kernel

end Xls
