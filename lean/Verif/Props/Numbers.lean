/-
C114: how a table is read does not depend on the numbers in it.
-/
import Verif.Lemmas.Numbers3
import Verif.Lemmas.Alike
import Verif.Spec.Determined
import Verif.Lemmas.Determined
import Verif.Props.MovedLeftOut

set_option autoImplicit false

namespace Xls

open Spec

/-- C114 for parameters that are complete. Two worksheets have the same dates and headers, and where one has a number
for a value the other has a number too; `R` holds between such numbers. Then reading fails with the same error on
both, or gives data frames with the same dates and columns in which `R` holds between corresponding numbers. The
parameters are completed in the same way. -/
theorem C114_numbers (ext : Ext) (R : Num → Num → Prop) (hR : R .nan .nan) {p : Params} {sps : List SParams}
    {s t : Sheet} (hp : HasSeries p sps) (ha : ValuesApart sps) (h : Renumbered ext R sps s t) :
    ((∃ e, (scrape ext p s).1 = .error e ∧ (scrape ext p t).1 = .error e) ∨
      ∃ fs gs, (scrape ext p s).1 = .ok fs ∧ (scrape ext p t).1 = .ok gs ∧ List.Forall₂ (FrameLike R) fs gs) ∧
    (scrape ext p t).2.1 = (scrape ext p s).2.1 := scrape_rel hR hp ha h

/-- C114 for calls, in safe mode or not, whose parameters are complete. -/
theorem C114_call (ext : Ext) (R : Num → Num → Prop) (hR : R .nan .nan) (wb wb2 : List Nat) (w w2 : World)
    (given given2 : Given) (name name2 : Str) (safe preserve preserve2 : Bool) (r r2 : Nat) {p : Params}
    {sps : List SParams} (hreq : Requested ext wb w name r) (hreq2 : Requested ext wb2 w2 name2 r2)
    (hwb : ∀ q ∈ wb, q < w.nextSheet ∧ WellFormed (w.sheets q))
    (hwb2 : ∀ q ∈ wb2, q < w2.nextSheet ∧ WellFormed (w2.sheets q)) (hgiven : GivenWith given w p)
    (hgiven2 : GivenWith given2 w2 p) (hp : HasSeries p sps) (hne : sps ≠ []) (ha : ValuesApart sps)
    (h : Renumbered ext R sps (w.sheets r) (w2.sheets r2)) :
    (∃ e, outcome (getDataFrames ext wb given name safe preserve w) = .error e ∧
      outcome (getDataFrames ext wb2 given2 name2 safe preserve2 w2) = .error e) ∨
    ∃ d d', outcome (getDataFrames ext wb given name safe preserve w) = .ok (.dfs d, (w.sheets r).title) ∧
      outcome (getDataFrames ext wb2 given2 name2 safe preserve2 w2) = .ok (.dfs d', (w2.sheets r2).title) ∧
      DfsLike R d d' := by
  have hc := complete_series hp hne
  refine calls_like hreq hreq2 hwb hwb2 hgiven hgiven2 (.inr hc) fun q hq => ?_
  have : q = p := by
    unfold Tried discoverParameters at hq
    rw [hc] at hq
    exact hq
  subst this
  exact (C114_numbers ext R hR hp ha h).1

/-- C114 for calls without safe mode that may leave parameters out, if the worksheets correspond under all
completions that may be tried. -/
theorem C114_left_out_partial (ext : Ext) (R : Num → Num → Prop) (hR : R .nan .nan) (wb wb2 : List Nat) (w w2 : World)
    (given given2 : Given) (name name2 : Str) (preserve preserve2 : Bool) (r r2 : Nat) {p : Params} (N : Nat)
    (hreq : Requested ext wb w name r) (hreq2 : Requested ext wb2 w2 name2 r2)
    (hwb : ∀ q ∈ wb, q < w.nextSheet ∧ WellFormed (w.sheets q))
    (hwb2 : ∀ q ∈ wb2, q < w2.nextSheet ∧ WellFormed (w2.sheets q)) (hgiven : GivenWith given w p)
    (hgiven2 : GivenWith given2 w2 p) (hp : GivenFor p N) (hd : ∀ n, LeftOut p n → Discoverable n)
    (h : ∀ q, Completion p N q → ∃ sps, HasSeries q sps ∧ ValuesApart sps ∧
      Renumbered ext R sps (w.sheets r) (w2.sheets r2)) :
    (∃ e, outcome (getDataFrames ext wb given name false preserve w) = .error e ∧
      outcome (getDataFrames ext wb2 given2 name2 false preserve2 w2) = .error e) ∨
    ∃ d d', outcome (getDataFrames ext wb given name false preserve w) = .ok (.dfs d, (w.sheets r).title) ∧
      outcome (getDataFrames ext wb2 given2 name2 false preserve2 w2) = .ok (.dfs d', (w2.sheets r2).title) ∧
      DfsLike R d d' := by
  refine calls_like hreq hreq2 hwb hwb2 hgiven hgiven2 (.inl rfl) fun q hq => ?_
  obtain ⟨sps, h1, h2, h3⟩ := h q (tried_completion hp hd hq)
  exact (C114_numbers ext R hR h1 h2 h3).1

/-! ### A function of the numbers -/

theorem map_of_rel {f : Num → Num} {xs ys : List Num} (h : List.Forall₂ (fun x y => y = f x) xs ys) : ys = xs.map f := by
  induction h with
  | nil => rfl
  | cons h _ ih => rw [h, ih, List.map_cons]

theorem mapFrame_of {f : Num → Num} {x y : Frame} (h : FrameLike (fun x y => y = f x) x y) : y = mapFrame f x := by
  obtain ⟨h1, h2, h3, h4⟩ := h
  obtain ⟨a, b, c, d⟩ := x
  obtain ⟨a', b', c', d'⟩ := y
  dsimp only at h1 h2 h3 h4
  subst h1 h2 h3
  unfold mapFrame
  congr 1
  dsimp only
  induction h4 with
  | nil => rfl
  | cons h _ ih => rw [map_of_rel h, ih, List.map_cons]

theorem mapDfs_of {f : Num → Num} {x y : Dfs} (h : DfsLike (fun x y => y = f x) x y) : y = mapDfs f x := by
  cases h with
  | one h => rw [mapFrame_of h]; rfl
  | many h =>
    show _ = Dfs.many _
    congr 1
    induction h with
    | nil => rfl
    | cons h _ ih => rw [mapFrame_of h, ih, List.map_cons]

/-- C114, as seen by someone who changes all numbers in the same way, for instance from thousands to units. -/
theorem C114_mapped (ext : Ext) (f : Num → Num) (hf : f .nan = .nan) (wb wb2 : List Nat) (w w2 : World)
    (given given2 : Given) (name name2 : Str) (safe preserve preserve2 : Bool) (r r2 : Nat) {p : Params}
    {sps : List SParams} (hreq : Requested ext wb w name r) (hreq2 : Requested ext wb2 w2 name2 r2)
    (hwb : ∀ q ∈ wb, q < w.nextSheet ∧ WellFormed (w.sheets q))
    (hwb2 : ∀ q ∈ wb2, q < w2.nextSheet ∧ WellFormed (w2.sheets q)) (hgiven : GivenWith given w p)
    (hgiven2 : GivenWith given2 w2 p) (hp : HasSeries p sps) (hne : sps ≠ []) (ha : ValuesApart sps)
    (h : Renumbered ext (fun x y => y = f x) sps (w.sheets r) (w2.sheets r2)) :
    outcome (getDataFrames ext wb2 given2 name2 safe preserve2 w2) =
      (outcome (getDataFrames ext wb given name safe preserve w)).map fun a => (mapAnswer f a.1, a.2) := by
  rcases C114_call ext (fun x y => y = f x) hf.symm wb wb2 w w2 given given2 name name2 safe preserve preserve2 r r2 hreq
    hreq2 hwb hwb2 hgiven hgiven2 hp hne ha h with ⟨e, k1, k2⟩ | ⟨d, d', k1, k2, k3⟩
  · rw [k1, k2]
    rfl
  · rw [k1, k2, mapDfs_of k3, h.title]
    rfl

/-! ### Examples -/

namespace Sample

/-- The number twice, everything else as it is. -/
def doubled : Cell → Cell
  | .int i => .int (2 * i)
  | .float (.fin q) => .float (.fin (2 * q))
  | v => v

/-- The double of a number. -/
def double : Num → Num
  | .nan => .nan
  | .fin q => .fin (2 * q)

/-- The quarters with all numbers doubled. -/
def quartersDoubled : Sheet := { quarterSheet with cells := fun r c => doubled (quarterSheet.cells r c) }

/-- A cell without `True`, `False`, dates or decimals. -/
def TextOrInt : Cell → Prop
  | .none => True
  | .str _ => True
  | .int _ => True
  | _ => False

theorem quarter_cells (r c : Int) : TextOrInt (quarterSheet.cells r c) ∧
    (r ≤ 1 ∨ c ≤ 1 → doubled (quarterSheet.cells r c) = quarterSheet.cells r c) := by
  have hs : WellFormed quarterSheet := rows_wellFormed (by decide) (by decide) (by decide)
  by_cases h : 1 ≤ r ∧ r ≤ 6 ∧ 1 ≤ c ∧ c ≤ 3
  · obtain ⟨h1, h2, h3, h4⟩ := h
    obtain ⟨r, rfl⟩ := Int.eq_ofNat_of_zero_le (a := r) (by omega)
    obtain ⟨c, rfl⟩ := Int.eq_ofNat_of_zero_le (a := c) (by omega)
    obtain ⟨h1, h2, h3, h4⟩ : 1 ≤ r ∧ r ≤ 6 ∧ 1 ≤ c ∧ c ≤ 3 := by omega
    interval_cases r <;> interval_cases c <;> exact ⟨trivial, by decide⟩
  · rw [hs.outside r c fun k => h ⟨k.1, k.2.1, k.2.2.1, k.2.2.2⟩]
    exact ⟨trivial, fun _ => rfl⟩

theorem doubled_same {sp : SParams} (hm : sp.missings = false) {v : Cell} (h : TextOrInt v) :
    SameValue ext0 (fun x y => y = double x) sp v (doubled v) := by
  have no : ∀ v, ¬ IsMark sp v := fun v h => by have := h.1; rw [hm] at this; cases this
  cases v with
  | none => exact .other trivial
  | str t => exact .other ⟨rfl, rfl⟩
  | int i => exact .numbers (x := .fin i) (y := .fin (2 * i : Int)) rfl rfl (by simp [double]) (no _) (no _)
  | _ => cases h

theorem quarters_apart : ValuesApart [quarterSeries c!"B1", quarterSeries c!"C1"] := by
  rintro sp hsp sq hsq r c ⟨hr, hc, pos, h1, -, h3⟩ ⟨a, ha, hr', hc', pos', k1, k2⟩
  simp only [List.mem_cons, List.not_mem_nil, or_false] at hsp hsq
  have ha : a = c!"A1" := by rcases hsq with rfl | rfl <;> simpa [timeCoords, quarterSeries, monthly] using ha
  subst ha
  have e : coordOf c!"A1" = .ok (1, 1) := by decide
  rw [e] at k1
  cases k1
  have k3 : c = 1 := by rcases hsq with rfl | rfl <;> exact k2.2
  rcases hsp with rfl | rfl
  · have e : coordOf (quarterSeries c!"B1").headerCoord = .ok (1, 2) := by decide
    rw [e] at h1
    cases h1
    have : c = 2 := h3.2
    omega
  · have e : coordOf (quarterSeries c!"C1").headerCoord = .ok (1, 3) := by decide
    rw [e] at h1
    cases h1
    have : c = 3 := h3.2
    omega

theorem quarters_doubled : Renumbered ext0 (fun x y => y = double x) [quarterSeries c!"B1", quarterSeries c!"C1"]
    quarterSheet quartersDoubled where
  title := rfl
  rows := rfl
  cols := rfl
  dates := by
    rintro sq hsq r c ⟨a, ha, hr', hc', pos', k1, k2⟩
    simp only [List.mem_cons, List.not_mem_nil, or_false] at hsq
    have ha : a = c!"A1" := by rcases hsq with rfl | rfl <;> simpa [timeCoords, quarterSeries, monthly] using ha
    subst ha
    have e : coordOf c!"A1" = .ok (1, 1) := by decide
    rw [e] at k1
    cases k1
    have k3 : c = 1 := by rcases hsq with rfl | rfl <;> exact k2.2
    exact (quarter_cells r c).2 (.inr (by omega))
  headers := by
    intro sp hsp a ha r c h
    simp only [List.mem_cons, List.not_mem_nil, or_false] at hsp
    refine (quarter_cells r c).2 (.inl ?_)
    rcases hsp with rfl | rfl
    · have : a = c!"B1" := by simpa [quarterSeries, monthly] using ha
      subst this
      rw [show coordOf c!"B1" = .ok (1, 2) by decide] at h
      cases h
      omega
    · have : a = c!"C1" := by simpa [quarterSeries, monthly] using ha
      subst this
      rw [show coordOf c!"C1" = .ok (1, 3) by decide] at h
      cases h
      omega
  values := by
    intro sp hsp r c _
    simp only [List.mem_cons, List.not_mem_nil, or_false] at hsp
    exact doubled_same (by rcases hsp with rfl | rfl <;> rfl) (quarter_cells r c).1

end Sample

/-- The quarters with doubled numbers, from what is known of the quarters. -/
example (safe preserve : Bool) :
    outcome (getDataFrames Sample.ext0 [0] (.object 0) [] safe preserve (Sample.world Sample.quartersDoubled
      (Sample.paramsOf [Sample.quarterSeries c!"B1", Sample.quarterSeries c!"C1"]))) =
    .ok (.dfs (.one ⟨c!"QS-JAN", [⟨2000, 7, 1, 0⟩, ⟨2000, 10, 1, 0⟩, ⟨2001, 1, 1, 0⟩], [c!"PBI", c!"IPC"],
      [[.fin 20, .fin 22, .fin 24], [.fin 2, .fin 4, .fin 6]]⟩), c!"S") := by
  have hs : WellFormed Sample.quarterSheet := Sample.rows_wellFormed (by decide) (by decide) (by decide)
  have hs2 : WellFormed Sample.quartersDoubled :=
    ⟨hs.rows, hs.cols, fun r c h => by
      show Sample.doubled (Sample.quarterSheet.cells r c) = _
      rw [hs.outside r c h]
      rfl⟩
  have h1 : ∀ (s : Sheet) (p : Params), WellFormed s → ∀ q ∈ [0], q < (Sample.world s p).nextSheet ∧
      WellFormed ((Sample.world s p).sheets q) :=
    fun s p hs q hq => by rw [List.mem_singleton] at hq; subst hq; exact ⟨Nat.one_pos, hs⟩
  refine Eq.trans (C114_mapped Sample.ext0 Sample.double rfl [0] [0]
    (Sample.world Sample.quarterSheet (Sample.paramsOf [Sample.quarterSeries c!"B1", Sample.quarterSeries c!"C1"]))
    _ (.object 0) (.object 0) [] [] safe true preserve 0 0 ⟨by simp, by simp, .inl ⟨rfl, rfl⟩⟩
    ⟨by simp, by simp, .inl ⟨rfl, rfl⟩⟩ (h1 _ _ hs) (h1 _ _ hs2) (.inl ⟨0, rfl, rfl⟩) (.inl ⟨0, rfl, rfl⟩)
    (p := Sample.paramsOf [Sample.quarterSeries c!"B1", Sample.quarterSeries c!"C1"]) (fun _ => rfl) (by simp)
    Sample.quarters_apart Sample.quarters_doubled) ?_
  cases safe <;> decide +kernel

/-! ### Safe mode -/

namespace Sample

/-- Two tables with dates and values both below and beside the headers. -/
def diagSheet : Sheet := rows
  [[.str c!"fecha", .none, day 2000 1 1, day 2000 2 1, .none, .none, .none, .none],
   [.none, .str c!"PBI", .int 10, .int 11],
   [day 2000 1 1, .int 10],
   [day 2000 2 1, .int 11],
   [.none, .none, .none, .none, .str c!"fecha", .none, day 2000 5 1, day 2000 6 1],
   [.none, .none, .none, .none, .none, .str c!"IPC", .int 3, .int 4],
   [.none, .none, .none, .none, day 2000 5 1, .int 3],
   [.none, .none, .none, .none, day 2000 6 1, .int 4]]

/-- The same with another number in one cell. -/
def diagOther : Sheet :=
  { diagSheet with cells := fun r c => if r = 3 ∧ c = 2 then .int 99 else diagSheet.cells r c }

/-- The two series. -/
def diagSeries (al : Align) : List SParams :=
  [{ monthly with alignment := al, headerCoord := c!"B2", dataStarts := 3, dataEnds := some 4 },
   { monthly with alignment := al, headerCoord := c!"F6", dataStarts := 7, dataEnds := some 8, timeHeader := .single c!"E5" }]

/-- Nothing said about how they stand. -/
def diagOpen : Params := fun n => if n = .alignment then .none else paramsOf (diagSeries .vertical) n

theorem diagOpen_leftOut (n : Name) : LeftOut diagOpen n ↔ n = .alignment := by
  constructor
  · rintro ⟨h, _⟩
    cases n <;> first | rfl | cases h
  · rintro rfl
    exact ⟨rfl, by decide⟩

theorem diagOpen_given : GivenFor diagOpen 2 where
  num := by decide
  pos := by decide
  each := by
    intro n h1 h2
    cases n <;> first
      | exact absurd rfl h2
      | exact absurd (by decide) h1
      | exact .inl rfl
      | exact .inr ⟨_, rfl, rfl⟩
  timeHeaderC := ⟨_, rfl, by decide⟩

theorem diagOpen_discoverable (n : Name) (h : LeftOut diagOpen n) : Discoverable n := by
  rw [diagOpen_leftOut] at h
  subst h
  simp [Discoverable, choices]

/-- Where the dates and values are. -/
theorem diag_places {al : Align} (hal : al = .vertical ∨ al = .horizontal) {sp : SParams} (h : sp ∈ diagSeries al)
    {r c : Int} : (InDates sp r c → if al = .vertical then c = 1 ∨ c = 5 else r = 1 ∨ r = 5) ∧
      (InValues sp r c → if al = .vertical then c = 2 ∨ c = 6 else r = 2 ∨ r = 6) := by
  have e1 : coordOf c!"A1" = .ok (1, 1) := by decide
  have e2 : coordOf c!"B2" = .ok (2, 2) := by decide
  have e3 : coordOf c!"E5" = .ok (5, 5) := by decide
  have e4 : coordOf c!"F6" = .ok (6, 6) := by decide
  simp only [diagSeries, List.mem_cons, List.not_mem_nil, or_false] at h
  constructor
  · rintro ⟨a, ha, hr, hc, pos, k1, k2⟩
    rcases h with rfl | rfl
    · simp only [timeCoords, monthly, List.mem_cons, List.not_mem_nil, or_false] at ha
      subst ha
      rw [e1] at k1
      cases k1
      rcases hal with rfl | rfl
      · exact .inl k2.2
      · exact .inl k2.1
    · simp only [timeCoords, List.mem_cons, List.not_mem_nil, or_false] at ha
      subst ha
      rw [e3] at k1
      cases k1
      rcases hal with rfl | rfl
      · exact .inr k2.2
      · exact .inr k2.1
  · rintro ⟨hr, hc, pos, k1, -, k2⟩
    rcases h with rfl | rfl
    · dsimp only at k1
      rw [e2] at k1
      cases k1
      rcases hal with rfl | rfl
      · exact .inl k2.2
      · exact .inl k2.1
    · dsimp only at k1
      rw [e4] at k1
      cases k1
      rcases hal with rfl | rfl
      · exact .inr k2.2
      · exact .inr k2.1

theorem diag_apart {al : Align} (hal : al = .vertical ∨ al = .horizontal) : ValuesApart (diagSeries al) := by
  intro sp hsp sq hsq r c h1 h2
  have h1 := (diag_places hal hsp).2 h1
  have h2 := (diag_places hal hsq).1 h2
  rcases hal with rfl | rfl
  · rw [if_pos rfl] at h1 h2
    omega
  · rw [if_neg (by decide)] at h1 h2
    omega

theorem diag_cells (r c : Int) : (∃ i, diagSheet.cells r c = .int i) ∨ NoNumber ext0 (diagSheet.cells r c) := by
  have hs : WellFormed diagSheet := rows_wellFormed (by decide) (by decide) (by decide)
  by_cases h : 1 ≤ r ∧ r ≤ 8 ∧ 1 ≤ c ∧ c ≤ 8
  · obtain ⟨h1, h2, h3, h4⟩ := h
    obtain ⟨r, rfl⟩ := Int.eq_ofNat_of_zero_le (a := r) (by omega)
    obtain ⟨c, rfl⟩ := Int.eq_ofNat_of_zero_le (a := c) (by omega)
    obtain ⟨h1, h2, h3, h4⟩ : 1 ≤ r ∧ r ≤ 8 ∧ 1 ≤ c ∧ c ≤ 8 := by omega
    interval_cases r <;> interval_cases c <;>
      first | exact .inl ⟨_, rfl⟩ | exact .inr trivial | exact .inr ⟨rfl, rfl⟩
  · rw [hs.outside r c fun k => h ⟨k.1, k.2.1, k.2.2.1, k.2.2.2⟩]
    exact .inr trivial

theorem diag_renumbered {al : Align} (hal : al = .vertical ∨ al = .horizontal) :
    Renumbered ext0 (fun _ _ => True) (diagSeries al) diagSheet diagOther where
  title := rfl
  rows := rfl
  cols := rfl
  dates := by
    intro sp hsp r c h
    have h := (diag_places hal hsp).1 h
    refine if_neg ?_
    rintro ⟨rfl, rfl⟩
    rcases hal with rfl | rfl
    · rw [if_pos rfl] at h
      omega
    · rw [if_neg (by decide)] at h
      omega
  headers := by
    intro sp hsp a ha r c h
    have e2 : coordOf c!"B2" = .ok (2, 2) := by decide
    have e4 : coordOf c!"F6" = .ok (6, 6) := by decide
    simp only [diagSeries, List.mem_cons, List.not_mem_nil, or_false] at hsp
    refine if_neg ?_
    rcases hsp with rfl | rfl
    · have : a = c!"B2" := by simpa [monthly] using ha
      subst this
      rw [e2] at h
      cases h
      omega
    · have : a = c!"F6" := by simpa [monthly] using ha
      subst this
      rw [e4] at h
      cases h
      omega
  values := by
    intro sp hsp r c _
    have hm : sp.missings = false := by
      simp only [diagSeries, List.mem_cons, List.not_mem_nil, or_false] at hsp
      rcases hsp with rfl | rfl <;> rfl
    have no : ∀ v, ¬ IsMark sp v := fun v h => by have := h.1; rw [hm] at this; cases this
    show SameValue _ _ _ _ (if r = 3 ∧ c = 2 then .int 99 else diagSheet.cells r c)
    split
    next h =>
      obtain ⟨rfl, rfl⟩ := h
      exact .numbers (x := .fin (10 : Int)) (y := .fin (99 : Int)) (v := .int 10) rfl rfl trivial (no _) (no _)
    · rcases diag_cells r c with ⟨i, hi⟩ | h
      · rw [hi]
        exact .numbers (x := .fin i) (y := .fin i) rfl rfl trivial (no _) (no _)
      · exact .other h

theorem diag_completion (q : Params) (h : Completion diagOpen 2 q) :
    ∃ al, (al = .vertical ∨ al = .horizontal) ∧ HasSeries q (diagSeries al) := by
  obtain ⟨v, hv, hq⟩ := (h .alignment).1 ((diagOpen_leftOut _).2 rfl)
  simp only [choices, List.mem_cons, List.not_mem_nil, or_false] at hv
  have key : ∀ al, v = rawValue { monthly with alignment := al } .alignment → HasSeries q (diagSeries al) := by
    rintro al rfl n
    by_cases hn : n = .alignment
    · subst hn
      exact hq
    · rw [(h n).2 fun hl => hn ((diagOpen_leftOut n).1 hl)]
      unfold diagOpen
      rw [if_neg hn]
      cases n <;> first | rfl | exact absurd rfl hn
  rcases hv with rfl | rfl
  · exact ⟨_, .inl rfl, key .vertical rfl⟩
  · exact ⟨_, .inr rfl, key .horizontal rfl⟩

end Sample

/-- Two tables that can be read downwards or sideways; nothing is said about it. Without safe mode only the numbers are
different after one of them is changed: `C114_left_out_partial`. -/
example (preserve : Bool) :
    (∃ e, outcome (getDataFrames Sample.ext0 [0] (.object 0) [] false preserve
        (Sample.world Sample.diagSheet Sample.diagOpen)) = .error e ∧
      outcome (getDataFrames Sample.ext0 [0] (.object 0) [] false preserve
        (Sample.world Sample.diagOther Sample.diagOpen)) = .error e) ∨
    ∃ d d', outcome (getDataFrames Sample.ext0 [0] (.object 0) [] false preserve
        (Sample.world Sample.diagSheet Sample.diagOpen)) = .ok (.dfs d, c!"S") ∧
      outcome (getDataFrames Sample.ext0 [0] (.object 0) [] false preserve
        (Sample.world Sample.diagOther Sample.diagOpen)) = .ok (.dfs d', c!"S") ∧
      DfsLike (fun _ _ => True) d d' := by
  have hs : WellFormed Sample.diagSheet := Sample.rows_wellFormed (by decide) (by decide) (by decide)
  have hs2 : WellFormed Sample.diagOther := ⟨hs.rows, hs.cols, fun r c h => by
    show (if r = 3 ∧ c = 2 then _ else Sample.diagSheet.cells r c) = _
    rw [if_neg, hs.outside r c h]
    rintro ⟨rfl, rfl⟩
    exact h (by decide)⟩
  have h1 : ∀ (s : Sheet) (p : Params), WellFormed s → ∀ q ∈ [0], q < (Sample.world s p).nextSheet ∧
      WellFormed ((Sample.world s p).sheets q) :=
    fun s p hs q hq => by rw [List.mem_singleton] at hq; subst hq; exact ⟨Nat.one_pos, hs⟩
  exact C114_left_out_partial Sample.ext0 (fun _ _ => True) trivial [0] [0] (Sample.world Sample.diagSheet Sample.diagOpen)
    (Sample.world Sample.diagOther Sample.diagOpen) (.object 0) (.object 0) [] [] preserve preserve 0 0 2
    ⟨by simp, by simp, .inl ⟨rfl, rfl⟩⟩ ⟨by simp, by simp, .inl ⟨rfl, rfl⟩⟩ (h1 _ _ hs) (h1 _ _ hs2)
    (.inl ⟨0, rfl, rfl⟩) (.inl ⟨0, rfl, rfl⟩) Sample.diagOpen_given Sample.diagOpen_discoverable fun q hq => by
      obtain ⟨al, h1, h2⟩ := Sample.diag_completion q hq
      exact ⟨_, h2, Sample.diag_apart h1, Sample.diag_renumbered h1⟩

/-- C114. In safe mode it depends on the numbers how many results are given: all ways to fill in what was left out read
cells with numbers from both worksheets, but on one of them two of these ways give the same numbers. -/
theorem C114_safe_violated : GivenFor Sample.diagOpen 2 ∧
    (∀ q, Completion Sample.diagOpen 2 q → ∃ sps, HasSeries q sps ∧ ValuesApart sps ∧
      Renumbered Sample.ext0 (fun _ _ => True) sps Sample.diagSheet Sample.diagOther) ∧
    ∃ d ds, outcome (getDataFrames Sample.ext0 [0] (.object 0) [] true true
        (Sample.world Sample.diagSheet Sample.diagOpen)) = .ok (.dfs d, c!"S") ∧
      outcome (getDataFrames Sample.ext0 [0] (.object 0) [] true true
        (Sample.world Sample.diagOther Sample.diagOpen)) = .ok (.several ds, c!"S") ∧ ds.length = 2 := by
  refine ⟨Sample.diagOpen_given, fun q hq => ?_, (match outcome (getDataFrames Sample.ext0 [0] (.object 0) [] true true
      (Sample.world Sample.diagSheet Sample.diagOpen)) with
    | .ok (.dfs d, _) => d
    | _ => .many []), (match outcome (getDataFrames Sample.ext0 [0] (.object 0) [] true true
      (Sample.world Sample.diagOther Sample.diagOpen)) with
    | .ok (.several ds, _) => ds
    | _ => []), ?_, ?_, ?_⟩
  · obtain ⟨al, h1, h2⟩ := Sample.diag_completion q hq
    exact ⟨_, h2, Sample.diag_apart h1, Sample.diag_renumbered h1⟩
  · decide +kernel
  · decide +kernel
  · decide +kernel

end Xls
