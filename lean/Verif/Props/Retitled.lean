/-
C117: the texts of headers matter only for the names of columns.
-/
import Verif.Spec.Retitled
import Verif.Lemmas.Numbers3
import Verif.Lemmas.Alike
import Verif.Props.Tables

set_option autoImplicit false

namespace Xls

open Spec

theorem addName_length' (a : Str) (c : List Str) : (addName a c).length = c.length + 1 := by
  have := addNames_length [a] c
  simpa [addNames] using this

/-- Columns of the same number. -/
def SameNumber (c d : List Str) : Prop := d.length = c.length

theorem namesFit_any (a b : Str) : NamesFit SameNumber a b := by
  intro c d h
  show _ = _
  rw [addName_length', addName_length', show d.length = c.length from h]

theorem composedParts_retitled {ext : Ext} {u v : Sheet} : ∀ (cs : List Str),
    (∀ a ∈ cs, ∀ r c, coordOf a = .ok (r, c) → (HoldsText (v.cells r c) ↔ HoldsText (u.cells r c))) →
    ExRel (fun _ _ => True) (composedParts ext u cs) (composedParts ext v cs)
  | [], _ => .inr ⟨_, _, rfl, rfl, trivial⟩
  | a :: cs, h => by
    unfold composedParts cellAt
    cases ha : coordOf a with
    | error e => exact .inl ⟨_, rfl, rfl⟩
    | ok rc =>
      obtain ⟨r, c⟩ := rc
      dsimp only
      have h1 := h a (by simp) r c ha
      have ih := composedParts_retitled (ext := ext) (u := u) (v := v) cs fun b hb => h b (by simp [hb])
      cases hu : u.cells r c <;> cases hv : v.cells r c <;> rw [hu, hv] at h1 <;>
        first
        | exact .inl ⟨_, rfl, rfl⟩
        | exact absurd (h1.1 trivial) id
        | exact absurd (h1.2 trivial) id
        | skip
      dsimp only
      rcases ih with ⟨e, k1, k2⟩ | ⟨x, y, k1, k2, -⟩
      · rw [k1, k2]
        exact .inl ⟨_, rfl, rfl⟩
      · rw [k1, k2]
        exact .inr ⟨_, _, rfl, rfl, trivial⟩

theorem getName_retitled {ext : Ext} {u v : Sheet} (sp : SParams)
    (h : Unnamed sp → ∀ a ∈ sp.composedHeaders.getD [], ∀ r c, coordOf a = .ok (r, c) →
      (HoldsText (v.cells r c) ↔ HoldsText (u.cells r c))) :
    ExRel (NamesFit SameNumber) (getName ext sp u) (getName ext sp v) := by
  have key : Unnamed sp → ExRel (NamesFit SameNumber)
      (match cellAt u sp.headerCoord with
        | .error e => .error e
        | .ok v =>
          match composedParts ext u (sp.composedHeaders.getD []) with
          | .error e => .error e
          | .ok parts =>
            .ok (joinWith c!" - " ((sp.context.getD []).map strip ++
              [joinWith c!" " (parts ++ [strip (ext.unidecode (cellStr ext v))])])))
      (match cellAt v sp.headerCoord with
        | .error e => .error e
        | .ok w =>
          match composedParts ext v (sp.composedHeaders.getD []) with
          | .error e => .error e
          | .ok parts =>
            .ok (joinWith c!" - " ((sp.context.getD []).map strip ++
              [joinWith c!" " (parts ++ [strip (ext.unidecode (cellStr ext w))])]))) := by
    intro hu
    unfold cellAt
    cases coordOf sp.headerCoord with
    | error e => exact .inl ⟨_, rfl, rfl⟩
    | ok rc =>
      dsimp only
      rcases composedParts_retitled (ext := ext) _ (h hu) with ⟨e, k1, k2⟩ | ⟨x, y, k1, k2, -⟩
      · rw [k1, k2]
        exact .inl ⟨_, rfl, rfl⟩
      · rw [k1, k2]
        exact .inr ⟨_, _, rfl, rfl, namesFit_any _ _⟩
  unfold getName
  cases hn : sp.seriesName with
  | none => exact key (.inl hn)
  | some n =>
    cases n with
    | nil => exact key (.inr hn)
    | cons a as => exact .inr ⟨_, _, rfl, rfl, namesFit_any _ _⟩

/-- C117 for parameters that are complete. -/
theorem C117_headers (ext : Ext) {p : Params} {sps : List SParams} {s t : Sheet} (hp : HasSeries p sps)
    (h : Retitled sps s t) :
    ((∃ e, (scrape ext p s).1 = .error e ∧ (scrape ext p t).1 = .error e) ∨
      ∃ fs gs, (scrape ext p s).1 = .ok fs ∧ (scrape ext p t).1 = .ok gs ∧ List.Forall₂ SameButNames fs gs) ∧
    (scrape ext p t).2.1 = (scrape ext p s).2.1 := by
  have key := scrape_pair (R := Eq) (K := SameNumber) rfl rfl (fun c d h => h) hp ⟨h.title, h.rows, h.cols, h.dates⟩
    (s := s) (t := t) (ext := ext) ?_
  · refine ⟨?_, key.2⟩
    rcases key.1 with h | ⟨x, y, k1, k2, k3⟩
    · exact .inl h
    · refine .inr ⟨x, y, k1, k2, k3.imp fun f g h => ⟨h.freq, h.index, ?_, h.columns⟩⟩
      have h4 := h.data
      rw [show List.Forall₂ (Eq (α := Num)) = Eq from List.forall₂_eq_eq_eq, List.forall₂_eq_eq_eq] at h4
      exact h4.symm
  · intro u v hon hoff sp hsp e
    constructor
    · refine getName_retitled _ fun hu a ha r c hc => ?_
      by_cases hd : dateCells sps r c = true
      · rw [hon r c hd]
      · rw [(hoff r c hd).1, (hoff r c hd).2]
        exact h.texts sp hsp hu a ha r c hc
    · intro r c hv
      have : v.cells r c = u.cells r c := by
        by_cases hd : dateCells sps r c = true
        · exact hon r c hd
        · rw [(hoff r c hd).1, (hoff r c hd).2]
          exact h.values sp hsp r c hv
      rw [this]
      refine exRel_of fun o _ => ?_
      cases o with
      | none => trivial
      | some x => exact rfl

/-- C117 for calls, in safe mode or not, whose parameters are complete. -/
theorem C117_call (ext : Ext) (wb wb2 : List Nat) (w w2 : World) (given given2 : Given) (name name2 : Str)
    (safe preserve preserve2 : Bool) (r r2 : Nat) {p : Params} {sps : List SParams} (hreq : Requested ext wb w name r)
    (hreq2 : Requested ext wb2 w2 name2 r2) (hwb : ∀ q ∈ wb, q < w.nextSheet ∧ WellFormed (w.sheets q))
    (hwb2 : ∀ q ∈ wb2, q < w2.nextSheet ∧ WellFormed (w2.sheets q)) (hgiven : GivenWith given w p)
    (hgiven2 : GivenWith given2 w2 p) (hp : HasSeries p sps) (hne : sps ≠ [])
    (h : Retitled sps (w.sheets r) (w2.sheets r2)) :
    (∃ e, outcome (getDataFrames ext wb given name safe preserve w) = .error e ∧
      outcome (getDataFrames ext wb2 given2 name2 safe preserve2 w2) = .error e) ∨
    ∃ d d', outcome (getDataFrames ext wb given name safe preserve w) = .ok (.dfs d, (w.sheets r).title) ∧
      outcome (getDataFrames ext wb2 given2 name2 safe preserve2 w2) = .ok (.dfs d', (w2.sheets r2).title) ∧
      DfsRel SameButNames d d' := by
  have hc := complete_series hp hne
  refine calls_like hreq hreq2 hwb hwb2 hgiven hgiven2 (.inr hc) fun q hq => ?_
  have : q = p := by
    unfold Tried discoverParameters at hq
    rw [hc] at hq
    exact hq
  subst this
  exact (C117_headers ext hp h).1

/-- C117 for calls without safe mode that may leave parameters out. -/
theorem C117_left_out (ext : Ext) (wb wb2 : List Nat) (w w2 : World) (given given2 : Given) (name name2 : Str)
    (preserve preserve2 : Bool) (r r2 : Nat) {p : Params} (N : Nat) (hreq : Requested ext wb w name r)
    (hreq2 : Requested ext wb2 w2 name2 r2) (hwb : ∀ q ∈ wb, q < w.nextSheet ∧ WellFormed (w.sheets q))
    (hwb2 : ∀ q ∈ wb2, q < w2.nextSheet ∧ WellFormed (w2.sheets q)) (hgiven : GivenWith given w p)
    (hgiven2 : GivenWith given2 w2 p) (hp : GivenFor p N) (hd : ∀ n, LeftOut p n → Discoverable n)
    (h : ∀ q, Completion p N q → ∃ sps, HasSeries q sps ∧ Retitled sps (w.sheets r) (w2.sheets r2)) :
    (∃ e, outcome (getDataFrames ext wb given name false preserve w) = .error e ∧
      outcome (getDataFrames ext wb2 given2 name2 false preserve2 w2) = .error e) ∨
    ∃ d d', outcome (getDataFrames ext wb given name false preserve w) = .ok (.dfs d, (w.sheets r).title) ∧
      outcome (getDataFrames ext wb2 given2 name2 false preserve2 w2) = .ok (.dfs d', (w2.sheets r2).title) ∧
      DfsRel SameButNames d d' := by
  refine calls_like hreq hreq2 hwb hwb2 hgiven hgiven2 (.inl rfl) fun q hq => ?_
  obtain ⟨sps, h1, h2⟩ := h q (tried_completion hp hd hq)
  exact (C117_headers ext h1 h2).1

/-! ### Example -/

namespace Sample

/-- The quarters under other headers: a longer text, and a number. -/
def quartersRenamed : Sheet := { quarterSheet with
  cells := fun r c =>
    if r = 1 ∧ c = 2 then .str c!"Producto" else if r = 1 ∧ c = 3 then .int 7 else quarterSheet.cells r c }

theorem quarters_retitled : Retitled [quarterSeries c!"B1", quarterSeries c!"C1"] quarterSheet quartersRenamed where
  title := rfl
  rows := rfl
  cols := rfl
  dates := by
    rintro sq hsq r c ⟨a, ha, hr', hc', pos', k1, k2⟩
    simp only [List.mem_cons, List.not_mem_nil, or_false] at hsq
    have ha : a = c!"A1" := by rcases hsq with rfl | rfl <;> simpa [timeCoords, quarterSeries, monthly] using ha
    subst ha
    have e : coordOf c!"A1" = .ok (1, 1) := by decide
    rw [e] at k1
    cases k1
    have k3 : c = 1 := by rcases hsq with rfl | rfl <;> exact k2.2
    subst k3
    show (if r = 1 ∧ (1 : Int) = 2 then _ else if r = 1 ∧ (1 : Int) = 3 then _ else _) = _
    rw [if_neg (by omega), if_neg (by omega)]
  values := by
    rintro sp hsp r c ⟨hr, hc, pos, -, h2, h3⟩
    simp only [List.mem_cons, List.not_mem_nil, or_false] at hsp
    have h4 : 2 ≤ r := by
      have e1 : sp.alignment = .vertical := by rcases hsp with rfl | rfl <;> rfl
      have e2 : sp.dataStarts = 2 := by rcases hsp with rfl | rfl <;> rfl
      rw [e1] at h3
      rw [e2] at h2
      have : r = pos := h3.1
      omega
    show (if r = 1 ∧ c = 2 then _ else if r = 1 ∧ c = 3 then _ else _) = _
    rw [if_neg (by omega), if_neg (by omega)]
  texts := by
    intro sp hsp _ a ha
    simp only [List.mem_cons, List.not_mem_nil, or_false] at hsp
    rcases hsp with rfl | rfl <;> cases ha

end Sample

/-- Whatever the quarters give, the quarters under other headers give apart from names. -/
example (safe preserve : Bool) (d : Dfs) (title : Str)
    (h : outcome (getDataFrames Sample.ext0 [0] (.object 0) [] safe preserve (Sample.world Sample.quarterSheet
      (Sample.paramsOf [Sample.quarterSeries c!"B1", Sample.quarterSeries c!"C1"]))) = .ok (.dfs d, title)) :
    ∃ d', outcome (getDataFrames Sample.ext0 [0] (.object 0) [] safe preserve (Sample.world Sample.quartersRenamed
      (Sample.paramsOf [Sample.quarterSeries c!"B1", Sample.quarterSeries c!"C1"]))) = .ok (.dfs d', title) ∧
      DfsRel SameButNames d d' := by
  have hs : WellFormed Sample.quarterSheet := Sample.rows_wellFormed (by decide) (by decide) (by decide)
  have hs2 : WellFormed Sample.quartersRenamed := by
    refine ⟨hs.rows, hs.cols, fun r c h => ?_⟩
    have h' : ¬ (1 ≤ r ∧ r ≤ 6 ∧ 1 ≤ c ∧ c ≤ 3) := h
    show (if r = 1 ∧ c = 2 then _ else if r = 1 ∧ c = 3 then _ else _) = _
    rw [if_neg (by omega), if_neg (by omega)]
    exact hs.outside r c h
  have h1 : ∀ (s : Sheet) (p : Params), WellFormed s → ∀ q ∈ [0], q < (Sample.world s p).nextSheet ∧
      WellFormed ((Sample.world s p).sheets q) :=
    fun s p hs q hq => by rw [List.mem_singleton] at hq; subst hq; exact ⟨Nat.one_pos, hs⟩
  rcases C117_call Sample.ext0 [0] [0]
    (Sample.world Sample.quarterSheet (Sample.paramsOf [Sample.quarterSeries c!"B1", Sample.quarterSeries c!"C1"]))
    (Sample.world Sample.quartersRenamed (Sample.paramsOf [Sample.quarterSeries c!"B1", Sample.quarterSeries c!"C1"]))
    (.object 0) (.object 0) [] [] safe preserve preserve 0 0 ⟨by simp, by simp, .inl ⟨rfl, rfl⟩⟩
    ⟨by simp, by simp, .inl ⟨rfl, rfl⟩⟩ (h1 _ _ hs) (h1 _ _ hs2) (.inl ⟨0, rfl, rfl⟩) (.inl ⟨0, rfl, rfl⟩)
    (p := Sample.paramsOf [Sample.quarterSeries c!"B1", Sample.quarterSeries c!"C1"]) (fun _ => rfl) (by simp)
    Sample.quarters_retitled with ⟨e, k, -⟩ | ⟨d1, d2, k1, k2, k3⟩
  · rw [h] at k
    cases k
  · rw [h] at k1
    cases k1
    exact ⟨d2, k2, k3⟩

/-- What the quarters under other headers give. -/
example : outcome (getDataFrames Sample.ext0 [0] (.object 0) [] false true (Sample.world Sample.quartersRenamed
      (Sample.paramsOf [Sample.quarterSeries c!"B1", Sample.quarterSeries c!"C1"]))) =
    .ok (.dfs (.one ⟨c!"QS-JAN", [⟨2000, 7, 1, 0⟩, ⟨2000, 10, 1, 0⟩, ⟨2001, 1, 1, 0⟩], [c!"Producto", c!"7"],
      [[.fin 10, .fin 11, .fin 12], [.fin 1, .fin 2, .fin 3]]⟩), c!"S") := by
  decide +kernel

end Xls
