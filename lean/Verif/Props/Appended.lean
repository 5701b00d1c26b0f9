/-
C115: rows added below a table.
-/
import Verif.Spec.Appended
import Verif.Lemmas.Appended
import Verif.Props.Joined
import Verif.Props.Remembered
import Verif.Props.WorkingDays

set_option autoImplicit false

namespace Xls

open Spec

theorem forall₂_map_fst {R : Str × List Num → Str × List Num → Prop} (hR : ∀ c d, R c d → d.1 = c.1) :
    ∀ {cs ds : List (Str × List Num)}, List.Forall₂ R cs ds → ds.map Prod.fst = cs.map Prod.fst
  | _, _, .nil => rfl
  | _, _, .cons h t => by rw [List.map_cons, List.map_cons, hR _ _ h, forall₂_map_fst hR t]

theorem forall₂_common {α β γ : Type} {P : α → β → Prop} {Q : α → γ → Prop} {R : β → γ → Prop} {as : List α}
    (hR : ∀ a ∈ as, ∀ b c, P a b → Q a c → R b c) :
    ∀ {bs : List β} {cs : List γ}, List.Forall₂ P as bs → List.Forall₂ Q as cs → List.Forall₂ R bs cs := by
  induction as with
  | nil =>
    intro bs cs h1 h2
    cases h1
    cases h2
    exact .nil
  | cons a as ih =>
    intro bs cs h1 h2
    cases h1 with
    | cons h1 t1 =>
      cases h2 with
      | cons h2 t2 =>
        exact .cons (hR a (by simp) _ _ h1 h2) (ih (fun b hb => hR b (List.mem_cons_of_mem _ hb)) t1 t2)

/-- A data frame that is not of working days has the index of the range. -/
theorem frameOf_plain {ext : Ext} {k : Str × Time × Time} {pr : PRange} {cols : List Str} {data : List (List Num)}
    {f : Frame} (h : frameOf ext ⟨k, pr, cols, data⟩ = .ok f) (hB : f.freq ≠ c!"B") :
    f = ⟨pr.freqstr, pr.index, cols, data⟩ ∧ ∀ d ∈ data, d.length = pr.index.length := by
  unfold frameOf mkFrame at h
  dsimp only at h
  split at h
  next f' hf =>
    split at hf
    next hc =>
      cases hf
      cases h
      exact ⟨rfl, hc.2.2⟩
    · cases hf
  next e hf =>
    split at h
    · split at h
      · cases h
        exact absurd rfl hB
      · cases h
    · cases h

/-- C115. Rows are added below a table and the data frames are asked for again with the same complete parameters.
If both calls give a data frame, the second one goes on from the first: same frequency and columns, and the rows of the
first one come first, unchanged. Here `e` is the row where the series were found to end, which the first call notes in the
parameters. Conditions: the series have one frequency and their dates in common, go down and have no end given; the cells
with their names are not below the end; the last date is read as it stands; neither data frame is one of working days. -/
theorem C115_extends_partial (ext : Ext) {p : Params} {s s' : Sheet} {sps : List SParams} {e : Int} {fs fs' : List Frame}
    (hp : HasSeries p sps) (hne : sps ≠ []) (hs : ∀ x ∈ sps, ∀ y ∈ sps, SameDates x y)
    (hf : ∀ x ∈ sps, x.frequency.length = 1) (ho : ∀ x ∈ sps, OpenDown x)
    (he : HasSeries (scrape ext p s).2.1 (sps.map (endingAt e))) (hn : ∀ x ∈ sps, NamedAbove e x)
    (hl : ∀ x ∈ sps, ReadAsItStands x s e) (hadd : RowsAdded e s s') (h : (scrape ext p s).1 = .ok fs)
    (h' : (scrape ext p s').1 = .ok fs') (hB : ∀ f ∈ fs ++ fs', f.freq ≠ c!"B") :
    ∃ f f', fs = [f] ∧ fs' = [f'] ∧ GoesOn f f' := by
  obtain ⟨x, rest, rfl⟩ := List.exists_cons_of_ne_nil hne
  have hx : ∀ y ∈ x :: rest, SameDates x y := hs x (by simp)
  have hfx := hf x (by simp)
  have hox := ho x (by simp)
  have ending : ∀ y ∈ x :: rest, ∀ n, endingAt n y = { y with dataEnds := some n } := by
    intro y hy n
    unfold endingAt
    rw [(ho y hy).open_end]
  obtain ⟨stop, s1, pr, k, cols, hd, hg⟩ := scrape_inv hp hne hx hfx h
  obtain ⟨stop', s1', pr', k', cols', hd', hg'⟩ := scrape_inv hp hne hx hfx h'
  -- the end is the one noted
  have hstop : stop = e := by
    obtain ⟨p1, hcd, hp1⟩ := (cleanData_same (ext := ext) (s := s) hp hne hx).2.2.2 stop s1 hd.clean hd.positive hd.header
    have h2 : (scrape ext p s).2.1 = p1 := by
      unfold scrape
      rw [hcd]
    rw [h2] at he
    have h3 := (hp1 .dataEnds).symm.trans (he .dataEnds)
    injection h3 with h3
    rw [List.map_cons, List.map_cons, List.map_cons, List.map_cons, ending x (by simp), ending x (by simp)] at h3
    injection h3 with h3 _
    unfold rawValue at h3
    dsimp only at h3
    injection h3
  subst hstop
  have hread : x.timeComposed = true ∨
      ∃ th r c, x.timeHeader = .single th ∧ coordOf th = .ok (r, c) ∧ ∃ t, s.cells stop c = .dt t := by
    rcases hl x (by simp) with h0 | ⟨th, r, c, h1, h2, h3⟩
    · exact .inl h0
    · exact .inr ⟨th, r, c, h1, h2, (isDt_iff _).1 ((isDt_isDate _).2 h3)⟩
  obtain ⟨hle, hag⟩ := cleaned_agree hox.down hox.beside hox.open_end hd.clean hd'.clean hadd.kept hadd.reaches hread
  -- names and values
  have hstart : ∀ y ∈ x :: rest, y.dataStarts ≤ stop := by
    intro y hy
    obtain ⟨_, _, -, hlt, -⟩ := cleanTimeIndex_ends (sp := y)
      (ho y hy).beside (by rw [cleanTimeIndex_same ext (hx y hy) s]; exact hd.clean)
    omega
  have hcols : List.Forall₂ (fun c c' : Str × List Num => c'.1 = c.1 ∧ c.2 <+: c'.2) cols cols' := by
    refine forall₂_common (fun y hy c c' h1 h2 => ?_) hg hg'
    have g1 := h1.series
    have g2 := h2.series
    rw [ending y hy] at g1 g2
    exact getSeries_prefix (ho y hy).down (ho y hy).beside (hf y hy) (hstart y hy) hle hag (hn y hy) g1 g2
  -- the ranges
  have hranges : pr'.freqstr = pr.freqstr ∧ (pr.index <+: pr'.index ∨ pr'.index <+: pr.index) := by
    cases hg with
    | cons h1 _ =>
      cases hg' with
      | cons h2 _ =>
        obtain ⟨th, e1, hth, he1, -, -, hr1⟩ := h1.bounds
        obtain ⟨th2, e2, hth2, he2, -, -, hr2⟩ := h2.bounds
        rw [ending x (by simp)] at hth he1 hr1 hth2 he2 hr2
        dsimp only at hth he1 hr1 hth2 he2 hr2
        have e3 := singleHeader_eq hth.1 hth2.1
        subst e3
        have r1 := hr1 s1 (Grown.refl _)
        have r2 := hr2 s1' (Grown.refl _)
        rw [hox.down, hox.beside] at r1 r2
        exact seriesRanges_comparable hfx (fun c => hag _ c (hstart x (by simp))) r1 r2
  -- the data frames
  rw [scrape_dated hp hne hx hd hg] at h
  rw [scrape_dated hp hne hx hd' hg'] at h'
  split at h
  next f hfr =>
    split at h'
    next f' hfr' =>
      cases h
      cases h'
      obtain ⟨rfl, hlen⟩ := frameOf_plain hfr (hB f (by simp))
      obtain ⟨rfl, hlen'⟩ := frameOf_plain hfr' (hB f' (by simp))
      refine ⟨_, _, rfl, rfl, hranges.1, ?_, ?_, ?_⟩
      · show addNames [] (cols'.map Prod.fst) = addNames [] (cols.map Prod.fst)
        rw [forall₂_map_fst (R := fun c c' => c'.1 = c.1 ∧ c.2 <+: c'.2) (fun _ _ h => h.1) hcols]
      · show pr.index <+: pr'.index
        rcases hranges.2 with h1 | h1
        · exact h1
        · obtain ⟨c0, crest, rfl⟩ := List.exists_cons_of_ne_nil (forall₂_nonempty hg hne)
          cases hcols with
          | cons hc _ =>
            have a1 := hlen _ (by simp : c0.2 ∈ (c0 :: crest).map Prod.snd)
            have a2 := hlen' _ (List.mem_map_of_mem List.mem_cons_self)
            have a3 := hc.2.length_le
            have := h1.eq_of_length_le (by omega)
            rw [this]
      · show List.Forall₂ _ (cols.map Prod.snd) (cols'.map Prod.snd)
        rw [List.forall₂_map_left_iff, List.forall₂_map_right_iff]
        exact hcols.imp fun _ _ h => h.2
    · cases h'
  · cases h

/-- With complete parameters nothing else is tried. -/
theorem tried_complete {p q : Params} (hc : p.isComplete = .ok true) (h : Tried p q) : q = p := by
  unfold Tried discoverParameters at h
  rw [hc] at h
  exact h

/-- C115, for calls: the same of two calls with the same complete parameters, in any mode, on a workbook and on another
one in whose worksheet rows were added. The end `e` is the one in the parameters that the first call gives back. -/
theorem C115_call_partial (ext : Ext) (wb wb' : List Nat) (w w' w1 w1' : World) (given given' : Given)
    (name name' title title' : Str) (safe safe' preserve preserve' : Bool) (r r' kept kept' : Nat) {p : Params}
    {sps : List SParams} {e : Int} {d d' : Dfs} (hreq : Requested ext wb w name r)
    (hreq' : Requested ext wb' w' name' r') (hwb : ∀ q ∈ wb, q < w.nextSheet ∧ WellFormed (w.sheets q))
    (hwb' : ∀ q ∈ wb', q < w'.nextSheet ∧ WellFormed (w'.sheets q)) (hgiven : GivenWith given w p)
    (hgiven' : GivenWith given' w' p) (hp : HasSeries p sps) (hne : sps ≠ [])
    (hs : ∀ x ∈ sps, ∀ y ∈ sps, SameDates x y) (hf : ∀ x ∈ sps, x.frequency.length = 1) (ho : ∀ x ∈ sps, OpenDown x)
    (hn : ∀ x ∈ sps, NamedAbove e x) (hl : ∀ x ∈ sps, ReadAsItStands x (w.sheets r) e)
    (hadd : RowsAdded e (w.sheets r) (w'.sheets r'))
    (h : getDataFrames ext wb given name safe preserve w = (.ok (.dfs d, title, kept), w1))
    (he : HasSeries (w1.params kept) (sps.map (endingAt e)))
    (h' : getDataFrames ext wb' given' name' safe' preserve' w' = (.ok (.dfs d', title', kept'), w1'))
    (hB : ∀ f, d = .one f ∨ d' = .one f → f.freq ≠ c!"B") :
    ∃ f f', d = .one f ∧ d' = .one f' ∧ GoesOn f f' := by
  have hc := complete_series hp hne
  have state : ∀ {wb : List Nat} {w w1 : World} {given : Given} {name title : Str} {safe preserve : Bool} {r kept : Nat}
      {d : Dfs}, Requested ext wb w name r → (∀ q ∈ wb, q < w.nextSheet ∧ WellFormed (w.sheets q)) →
      GivenWith given w p → getDataFrames ext wb given name safe preserve w = (.ok (.dfs d, title, kept), w1) →
      ∃ fs s', scrape ext p (w.sheets r) = (.ok fs, w1.params kept, s') ∧ d = unwrap fs := by
    intro wb w w1 given name title safe preserve r kept d hreq hwb hgiven h
    obtain ⟨ws, pr, w2, e1, e2, e3, e4⟩ := call_state (safe := safe) (preserve := preserve) hreq hwb hgiven
    rw [e4] at h
    rcases hs : scraperFrames ext ws pr safe w2 with ⟨_ | ⟨a, q0⟩, w3⟩
    · rw [hs] at h
      cases h
    · rw [hs] at h
      cases h
      obtain ⟨q, fs, k1, ⟨s', k2⟩, k3⟩ := scraperFrames_remembers e2 (by rw [e1]; exact (hwb r hreq.1).2) hs
      rw [e3] at k1
      rw [e1, tried_complete hc k1] at k2
      exact ⟨fs, s', k2, k3⟩
  obtain ⟨fs, s1, k1, rfl⟩ := state hreq hwb hgiven h
  obtain ⟨fs', s1', k1', rfl⟩ := state hreq' hwb' hgiven' h'
  have single : ∀ {s : Sheet} {gs : List Frame}, (scrape ext p s).1 = .ok gs → ∃ g, gs = [g] := by
    intro s gs hg
    obtain ⟨x, rest, rfl⟩ := List.exists_cons_of_ne_nil hne
    have hx : ∀ y ∈ x :: rest, SameDates x y := hs x (by simp)
    obtain ⟨stop, s1, pr, k, cols, hd, hgv⟩ := scrape_inv hp hne hx (hf x (by simp)) hg
    rw [scrape_dated hp hne hx hd hgv] at hg
    split at hg
    · cases hg
      exact ⟨_, rfl⟩
    · cases hg
  obtain ⟨g, rfl⟩ := single (by rw [k1])
  obtain ⟨g', rfl⟩ := single (by rw [k1'])
  obtain ⟨f, f', e1, e2, e3⟩ := C115_extends_partial ext hp hne hs hf ho (by rw [k1]; exact he) hn hl hadd
    (by rw [k1]) (by rw [k1']) (by
      intro f hf
      rcases List.mem_append.1 hf with hm | hm
      · cases List.mem_singleton.1 hm
        exact hB _ (.inl rfl)
      · cases List.mem_singleton.1 hm
        exact hB _ (.inr rfl))
  cases e1
  cases e2
  exact ⟨_, _, rfl, rfl, e3⟩

/-! ### Where rows added below change what was there -/

/-- What one would like to hold: whenever the rows up to the end that was found stay as they are, the data frames of the
first call are continued by those of the second one. -/
def Spec.AddingExtends (ext : Ext) (p : Params) : Prop :=
  ∀ (s s' : Sheet) (sps : List SParams) (e : Int) (f f' : Frame), WellFormed s → WellFormed s' → HasSeries p sps →
    HasSeries (scrape ext p s).2.1 (sps.map (endingAt e)) → RowsAdded e s s' →
    (scrape ext p s).1 = .ok [f] → (scrape ext p s').1 = .ok [f'] → GoesOn f f'

namespace Sample

theorem rows_kept {vs ws : List (List Cell)} {n : Nat} (h : ws.take n = vs.take n) :
    ∀ r c : Int, r ≤ n → (rows ws).cells r c = (rows vs).cells r c := by
  intro r c hr
  show (if 1 ≤ c ∧ 1 ≤ r then (ws.getD (r.toNat - 1) []).getD (c.toNat - 1) .none else .none) =
    (if 1 ≤ c ∧ 1 ≤ r then (vs.getD (r.toNat - 1) []).getD (c.toNat - 1) .none else .none)
  split
  next hpos =>
    have hlt : r.toNat - 1 < n := by omega
    have h1 : ws[r.toNat - 1]? = vs[r.toNat - 1]? := by
      rw [← List.getElem?_take_of_lt hlt, h, List.getElem?_take_of_lt hlt]
    rw [List.getD_eq_getElem?_getD (l := ws), List.getD_eq_getElem?_getD (l := vs), h1]
  · rfl

/-- Friday, Saturday, Sunday and Monday. -/
def weekendSheet : Sheet := rows
  [[.str c!"fecha", .str c!"PBI"],
   [day 2018 1 5, .int 10],
   [day 2018 1 6, .int 11],
   [day 2018 1 7, .int 12],
   [day 2018 1 8, .int 13]]

/-- The same and the next Thursday. -/
def weekendMore : Sheet := rows
  [[.str c!"fecha", .str c!"PBI"],
   [day 2018 1 5, .int 10],
   [day 2018 1 6, .int 11],
   [day 2018 1 7, .int 12],
   [day 2018 1 8, .int 13],
   [day 2018 1 11, .int 14]]

/-- The working days from the Friday to the Thursday. -/
def workingWeek : List Time :=
  [⟨2018, 1, 5, 0⟩, ⟨2018, 1, 8, 0⟩, ⟨2018, 1, 9, 0⟩, ⟨2018, 1, 10, 0⟩, ⟨2018, 1, 11, 0⟩]

/-- Sundays, written in the American way. -/
def sundaySheet : Sheet := rows
  [[.str c!"fecha", .str c!"PBI"],
   [.str c!"04-18-2004", .int 10],
   [.str c!"04-25-2004", .int 11],
   [.str c!"05-02-2004", .int 12],
   [.str c!"05-09-2004", .int 13]]

/-- The same and the next Sunday. -/
def sundayMore : Sheet := rows
  [[.str c!"fecha", .str c!"PBI"],
   [.str c!"04-18-2004", .int 10],
   [.str c!"04-25-2004", .int 11],
   [.str c!"05-02-2004", .int 12],
   [.str c!"05-09-2004", .int 13],
   [.str c!"05-16-2004", .int 14]]

/-- A date library that reads these texts, days first where it is asked to and there is such a month. -/
def extSundays : Ext := { ext0 with
  arrowParse := fun s f =>
    if f = c!"DD-MM-YYYY" then
      (if s = c!"05-02-2004" then some ⟨2004, 2, 5, 0⟩
       else if s = c!"05-09-2004" then some ⟨2004, 9, 5, 0⟩ else none)
    else if f = c!"MM-DD-YYYY" then
      (if s = c!"04-18-2004" then some ⟨2004, 4, 18, 0⟩
       else if s = c!"04-25-2004" then some ⟨2004, 4, 25, 0⟩
       else if s = c!"05-02-2004" then some ⟨2004, 5, 2, 0⟩
       else if s = c!"05-09-2004" then some ⟨2004, 5, 9, 0⟩
       else if s = c!"05-16-2004" then some ⟨2004, 5, 16, 0⟩ else none)
    else none }

def sundaySeries : SParams :=
  { monthly with
    headerCoord := c!"B1", frequency := c!"W", missings := true, missingValue := .list [.str c!"Implicit"] }

/-- The Sundays up to the 5th of September. -/
def sundaysRead : List Time :=
  [⟨2004, 4, 18, 0⟩, ⟨2004, 4, 25, 0⟩, ⟨2004, 5, 2, 0⟩, ⟨2004, 5, 9, 0⟩, ⟨2004, 5, 16, 0⟩, ⟨2004, 5, 23, 0⟩,
   ⟨2004, 5, 30, 0⟩, ⟨2004, 6, 6, 0⟩, ⟨2004, 6, 13, 0⟩, ⟨2004, 6, 20, 0⟩, ⟨2004, 6, 27, 0⟩, ⟨2004, 7, 4, 0⟩,
   ⟨2004, 7, 11, 0⟩, ⟨2004, 7, 18, 0⟩, ⟨2004, 7, 25, 0⟩, ⟨2004, 8, 1, 0⟩, ⟨2004, 8, 8, 0⟩, ⟨2004, 8, 15, 0⟩,
   ⟨2004, 8, 22, 0⟩, ⟨2004, 8, 29, 0⟩, ⟨2004, 9, 5, 0⟩]

end Sample

/-- C115, negated: a Thursday is added to a table of days, and the values of the Saturday, the
Sunday and the Monday are found at the Monday, the Tuesday and the Wednesday. -/
theorem C115_days_violated :
    ¬ AddingExtends (Sample.extDays fun _ _ => Sample.workingWeek) (Sample.paramsOf [Sample.weekSeries c!"B1"]) := by
  intro h
  have h0 := h Sample.weekendSheet Sample.weekendMore [Sample.weekSeries c!"B1"] 5
    ⟨c!"D", [⟨2018, 1, 5, 0⟩, ⟨2018, 1, 6, 0⟩, ⟨2018, 1, 7, 0⟩, ⟨2018, 1, 8, 0⟩], [c!"PBI"],
      [[.fin 10, .fin 11, .fin 12, .fin 13]]⟩
    ⟨c!"B", Sample.workingWeek, [c!"PBI"], [[.fin 10, .fin 11, .fin 12, .fin 13, .fin 14]]⟩
    (Sample.rows_wellFormed (by decide) (by decide) (by decide)) (Sample.rows_wellFormed (by decide) (by decide) (by decide))
    (fun _ => rfl) (fun n => by cases n <;> rfl) ⟨Sample.rows_kept (n := 5) rfl, by decide⟩
    (by decide +kernel) (by decide +kernel)
  exact absurd h0.freq (by decide)

/-- C115, negated: of Sundays written in the American way, the last one, 9 May, is taken for 5 September until another
one is added. -/
theorem C115_texts_violated :
    ¬ AddingExtends Sample.extSundays (Sample.paramsOf [Sample.sundaySeries]) := by
  intro h
  have h0 := h Sample.sundaySheet Sample.sundayMore [Sample.sundaySeries] 5
    ⟨c!"W-SUN", Sample.sundaysRead, [c!"PBI"], [[.fin 10, .fin 11, .fin 12] ++ List.replicate 17 .nan ++ [.fin 13]]⟩
    ⟨c!"W-SUN", [⟨2004, 4, 18, 0⟩, ⟨2004, 4, 25, 0⟩, ⟨2004, 5, 2, 0⟩, ⟨2004, 5, 9, 0⟩, ⟨2004, 5, 16, 0⟩], [c!"PBI"],
      [[.fin 10, .fin 11, .fin 12, .fin 13, .fin 14]]⟩
    (Sample.rows_wellFormed (by decide) (by decide) (by decide)) (Sample.rows_wellFormed (by decide) (by decide) (by decide))
    (fun _ => rfl) (fun n => by cases n <;> rfl) ⟨Sample.rows_kept (n := 5) rfl, by decide⟩
    (by decide +kernel) (by decide +kernel)
  exact absurd h0.index.length_le (by decide)

/-! ### Examples -/

namespace Sample

/-- The quarters of `quarterSheet` and two more, above the same footnote. -/
def quarterMore : Sheet := rows
  [[.str c!"fecha", .str c!"PBI ", .str c!"IPC"],
   [.str c!"2000 III", .int 10, .int 1],
   [.str c!"IV", .int 11, .int 2],
   [.str c!"2001 I", .int 12, .int 3],
   [.str c!"II", .int 13, .int 4],
   [.str c!"III", .int 14, .int 5],
   [.str c!" ", .none, .none],
   [.str c!"Fuente: INDEC", .none, .none]]

/-- The data frame of `quarterSheet`. -/
def quarterFirst : Frame :=
  ⟨c!"QS-JAN", [⟨2000, 7, 1, 0⟩, ⟨2000, 10, 1, 0⟩, ⟨2001, 1, 1, 0⟩], [c!"PBI", c!"IPC"],
    [[.fin 10, .fin 11, .fin 12], [.fin 1, .fin 2, .fin 3]]⟩

/-- The data frame with the two quarters more. -/
def quarterFrame : Frame :=
  ⟨c!"QS-JAN", [⟨2000, 7, 1, 0⟩, ⟨2000, 10, 1, 0⟩, ⟨2001, 1, 1, 0⟩, ⟨2001, 4, 1, 0⟩, ⟨2001, 7, 1, 0⟩], [c!"PBI", c!"IPC"],
    [[.fin 10, .fin 11, .fin 12, .fin 13, .fin 14], [.fin 1, .fin 2, .fin 3, .fin 4, .fin 5]]⟩

end Sample

namespace Sample

/-- The two series of quarters. -/
def quarterPair : List SParams := [quarterSeries c!"B1", quarterSeries c!"C1"]

theorem quarter_same : ∀ x ∈ quarterPair, ∀ y ∈ quarterPair, SameDates x y := by
  intro x hx y hy
  simp only [quarterPair, List.mem_cons, List.not_mem_nil, or_false] at hx hy
  rcases hx with rfl | rfl <;> rcases hy with rfl | rfl <;> rfl

theorem quarter_open : ∀ x ∈ quarterPair, OpenDown x := by
  intro x hx
  simp only [quarterPair, List.mem_cons, List.not_mem_nil, or_false] at hx
  rcases hx with rfl | rfl <;> exact ⟨rfl, rfl, rfl⟩

theorem quarter_named : ∀ x ∈ quarterPair, NamedAbove 4 x := by
  intro x hx coord hc r c hrc
  simp only [quarterPair, List.mem_cons, List.not_mem_nil, or_false] at hx
  rcases hx with rfl | rfl
  · have h1 : coord = c!"B1" := by simpa [Sample.quarterSeries, Sample.monthly] using hc
    subst h1
    cases hrc
    decide
  · have h1 : coord = c!"C1" := by simpa [Sample.quarterSeries, Sample.monthly] using hc
    subst h1
    cases hrc
    decide

theorem quarter_stands : ∀ x ∈ quarterPair, ReadAsItStands x quarterSheet 4 := by
  intro x hx
  simp only [quarterPair, List.mem_cons, List.not_mem_nil, or_false] at hx
  rcases hx with rfl | rfl <;> exact .inl rfl

end Sample

/-- Two quarters are added to a table with a footnote. -/
example : ∃ f f', [Sample.quarterFirst] = [f] ∧ [Sample.quarterFrame] = [f'] ∧ GoesOn f f' :=
  C115_extends_partial Sample.ext0 (p := Sample.paramsOf Sample.quarterPair) (s := Sample.quarterSheet)
    (s' := Sample.quarterMore) (sps := Sample.quarterPair) (e := 4) (fun _ => rfl) (by decide) Sample.quarter_same
    (by decide) Sample.quarter_open (fun n => by cases n <;> rfl) Sample.quarter_named Sample.quarter_stands
    ⟨Sample.rows_kept (n := 4) rfl, by decide⟩ (by decide +kernel) (by decide +kernel) (by decide)

/-- The same for calls, one of them in safe mode on a copy of the workbook. -/
example : ∃ f f', Dfs.one Sample.quarterFirst = .one f ∧ Dfs.one Sample.quarterFrame = .one f' ∧ GoesOn f f' :=
  C115_call_partial Sample.ext0 [0] [0] (Sample.world Sample.quarterSheet (Sample.paramsOf Sample.quarterPair))
    (Sample.world Sample.quarterMore (Sample.paramsOf Sample.quarterPair)) _ _ (.object 0) (.object 0) [] [] c!"S" c!"S"
    true false true false 0 0 0 0 (p := Sample.paramsOf Sample.quarterPair) (sps := Sample.quarterPair) (e := 4)
    ⟨by simp, by simp, .inl ⟨rfl, rfl⟩⟩ ⟨by simp, by simp, .inl ⟨rfl, rfl⟩⟩
    (by
      intro q hq
      cases List.mem_singleton.1 hq
      exact ⟨Nat.zero_lt_one, Sample.rows_wellFormed (by decide) (by decide) (by decide)⟩)
    (by
      intro q hq
      cases List.mem_singleton.1 hq
      exact ⟨Nat.zero_lt_one, Sample.rows_wellFormed (by decide) (by decide) (by decide)⟩)
    (.inl ⟨0, rfl, rfl⟩) (.inl ⟨0, rfl, rfl⟩) (fun _ => rfl) (by decide) Sample.quarter_same (by decide)
    Sample.quarter_open Sample.quarter_named Sample.quarter_stands ⟨Sample.rows_kept (n := 4) rfl, by decide⟩
    (Prod.ext (by decide +kernel) rfl) (fun n => by cases n <;> rfl) (Prod.ext (by decide +kernel) rfl)
    (by rintro f (h | h) <;> cases h <;> decide)

end Xls
