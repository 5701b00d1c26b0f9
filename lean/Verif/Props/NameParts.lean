/-
C124: composed headers and contexts are lists of texts, or the series has a name.
-/
import Verif.Lemmas.NameParts
import Verif.Props.Tables
import Verif.Spec.Determined

set_option autoImplicit false

namespace Xls

open Spec

/-- C124. Whatever the parameters and the worksheet: if data frames are given back, then for every series the header is
a text, and if the series has no name, its composed headers and its context are lists of texts or nothing. -/
theorem C124_parts {ext : Ext} {p p' : Params} {s s' : Sheet} {fs : List Frame} (h : scrape ext p s = (.ok fs, p', s'))
    {i : Nat} {v : Name → PVal} (hv : ValuesAt p i v) :
    (∃ c, v .headersCoord = .str c) ∧ (CountsFalse (v .seriesNames) →
      TextsOrNothing (v .composedHeadersCoord) ∧ TextsOrNothing (v .context)) := by
  have hkeep : ∀ n, n ≠ .dataEnds → (cleanData ext p s).2.1 n = p n := fun n hn => cleanData_others ext p s hn
  unfold scrape at h
  split at h
  · cases h
  next q s1 hc =>
    rw [hc] at hkeep
    dsimp only at hkeep
    cases hg : getData ext _ s1 with
    | mk r s2 =>
      rw [hg] at h
      cases h
      unfold getData at hg
      split at hg
      · cases hg
      next bs u _ =>
        obtain ⟨hs, h1, h2⟩ := hv .headersCoord
        rw [hkeep .headersCoord (by decide), h1] at hg
        simp only [Params.len] at hg
        split at hg
        · cases hg
        next bs' s3 hl =>
          have hi : i < hs.length := by
            by_contra k
            rw [List.getElem?_eq_none (by omega)] at h2
            cases h2
          obtain ⟨sp, ht⟩ := seriesLoop_typed hl i (List.mem_range.2 hi)
          unfold Params.typed at ht
          cases hd : p'.series i with
          | error e => rw [hd] at ht; cases ht
          | ok d =>
            have hw : ∃ w : Name → PVal, ValuesAt p' i w ∧ ∀ n, n ≠ .dataEnds → w n = v n := by
              rw [hd] at ht
              obtain ⟨x, hx⟩ := ofDict_ends ht
              obtain ⟨_, vs, k1, k2⟩ := (seriesDict_spec hd _ _).1 (entry_mem hx)
              refine ⟨fun n => if n = .dataEnds then x else v n, fun n => ?_, fun n hn => if_neg hn⟩
              by_cases hn : n = .dataEnds
              · subst hn
                exact ⟨vs, k1, by rw [k2]; exact congrArg some (if_pos rfl).symm⟩
              · obtain ⟨us, k3, k4⟩ := hv n
                exact ⟨us, by rw [hkeep n hn, k3], by rw [k4]; exact congrArg some (if_neg hn).symm⟩
            obtain ⟨w, hw, hwv⟩ := hw
            have ht' : p'.typed i = .ok sp := ht
            rw [typed_values hw] at ht'
            have := ofDict_parts ht'
            rw [hwv _ (by decide), hwv _ (by decide), hwv _ (by decide), hwv _ (by decide)] at this
            exact this

/-- C124. Through the entry point, with parameters in any form that give a value of every parameter for each of `k`
series: if some series has no name, and its composed headers or its context are neither a list of texts nor nothing, an
error is raised. -/
theorem C124_refused (ext : Ext) (wb : List Nat) (w : World) (given : Given) (name : Str) (safe preserve : Bool)
    (r : Nat) {p : Params} {k i : Nat} {v : Name → PVal} (hreq : Requested ext wb w name r)
    (hwb : ∀ q ∈ wb, q < w.nextSheet ∧ WellFormed (w.sheets q)) (hgiven : GivenWith given w p) (hp : SeriesCount p k)
    (hv : ValuesAt p i v) (hname : CountsFalse (v .seriesNames))
    (hbad : ¬ TextsOrNothing (v .composedHeadersCoord) ∨ ¬ TextsOrNothing (v .context)) :
    ∃ e w', getDataFrames ext wb given name safe preserve w = (.error e, w') := by
  rcases hscr : scrape ext p (w.sheets r) with ⟨res, p', s'⟩
  obtain ⟨pr, w', e⟩ := call_result ext wb w given name safe preserve r hreq hwb hgiven (count_complete hp) hscr
  cases res with
  | error er => exact ⟨er, w', e⟩
  | ok fs =>
    obtain ⟨h1, h2⟩ := (C124_parts hscr hv).2 hname
    rcases hbad with k | k
    · exact absurd h1 k
    · exact absurd h2 k

/-- C124. If every series has a name, composed headers and contexts do not matter, whatever they are: the outcome is the
same, and so is the worksheet. -/
theorem C124_named {ext : Ext} {p q : Params} {k : Nat} (hk : 1 ≤ k) (hp : SeriesCount p k) (hq : SeriesCount q k)
    (hn : AllNamed p) (hs : SameButParts p q) (s : Sheet) :
    (scrape ext q s).1 = (scrape ext p s).1 ∧ (scrape ext q s).2.2 = (scrape ext p s).2.2 :=
  scrape_named ext hk ⟨hp, hq, hn, hs⟩ s

/-- C124. The same through the entry point: both calls raise the same error or give the same data frames. -/
theorem C124_named_call (ext : Ext) (wb wb' : List Nat) (w w' : World) (given given' : Given) (name name' : Str)
    (safe safe' preserve preserve' : Bool) (r r' : Nat) {p q : Params} {k : Nat} (hreq : Requested ext wb w name r)
    (hreq' : Requested ext wb' w' name' r') (hwb : ∀ q ∈ wb, q < w.nextSheet ∧ WellFormed (w.sheets q))
    (hwb' : ∀ q ∈ wb', q < w'.nextSheet ∧ WellFormed (w'.sheets q)) (hsheet : w'.sheets r' = w.sheets r)
    (hgiven : GivenWith given w p) (hgiven' : GivenWith given' w' q) (hk : 1 ≤ k) (hp : SeriesCount p k)
    (hq : SeriesCount q k) (hn : AllNamed p) (hs : SameButParts p q) :
    (∃ e w1 w1', getDataFrames ext wb given name safe preserve w = (.error e, w1) ∧
      getDataFrames ext wb' given' name' safe' preserve' w' = (.error e, w1')) ∨
    ∃ d kept kept' w1 w1',
      getDataFrames ext wb given name safe preserve w = (.ok (.dfs d, (w.sheets r).title, kept), w1) ∧
      getDataFrames ext wb' given' name' safe' preserve' w' = (.ok (.dfs d, (w.sheets r).title, kept'), w1') := by
  obtain ⟨h1, -⟩ := C124_named (ext := ext) hk hp hq hn hs (w.sheets r)
  revert h1
  rcases hscr : scrape ext p (w.sheets r) with ⟨res, p', s'⟩
  rcases hscr' : scrape ext q (w.sheets r) with ⟨res', q', s''⟩
  intro h1
  dsimp only at h1
  subst h1
  obtain ⟨pr, w1, e⟩ := call_result ext wb w given name safe preserve r hreq hwb hgiven (count_complete hp) hscr
  obtain ⟨pr', w1', e'⟩ := call_result ext wb' w' given' name' safe' preserve' r' hreq' hwb' hgiven' (count_complete hq)
    (res := res') (p' := q') (s' := s'') (by rw [hsheet]; exact hscr')
  rw [hsheet] at e'
  cases res' with
  | error er => exact .inl ⟨er, w1, w1', e, e'⟩
  | ok fs => exact .inr ⟨_, pr, pr', w1, w1', e, e'⟩

/-! ### Examples -/

namespace Sample

/-- The parameters of two quarterly series, with values of their own for one parameter. -/
def partsParams (n : Name) (vs : List PVal) : Params :=
  (paramsOf [quarterSeries c!"B1", quarterSeries c!"C1"]).store n (.list vs)

theorem partsParams_count (n : Name) (vs : List PVal) (h : vs.length = 2) : SeriesCount (partsParams n vs) 2 := by
  intro m
  unfold partsParams Params.store
  split
  · exact ⟨vs, rfl, h⟩
  · exact ⟨_, rfl, rfl⟩

/-- Two quarterly series with names and contexts. -/
def namedParams (contexts : List PVal) : Params :=
  ((paramsOf [quarterSeries c!"B1", quarterSeries c!"C1"]).store .seriesNames (.list [.str c!"a", .str c!"b"])).store
    .context (.list contexts)

theorem namedParams_count (vs : List PVal) (h : vs.length = 2) : SeriesCount (namedParams vs) 2 := by
  intro m
  unfold namedParams Params.store
  split
  · exact ⟨vs, rfl, h⟩
  · split
    · exact ⟨_, rfl, rfl⟩
    · exact ⟨_, rfl, rfl⟩

end Sample

/-- A text as the context of the second series. -/
example : ∃ e w', getDataFrames Sample.ext0 [0] (.object 0) [] false false
    (Sample.world Sample.quarterSheet (Sample.partsParams .context [.none, .str c!"oferta"])) = (.error e, w') :=
  C124_refused Sample.ext0 [0]
    (Sample.world Sample.quarterSheet (Sample.partsParams .context [.none, .str c!"oferta"])) (.object 0) [] false false 0
    (p := Sample.partsParams .context [.none, .str c!"oferta"]) (k := 2) (i := 1)
    (v := fun n => if n = .context then .str c!"oferta" else rawValue (Sample.quarterSeries c!"C1") n)
    ⟨by simp, by simp, .inl ⟨rfl, rfl⟩⟩
    (by
      intro q hq
      cases List.mem_singleton.1 hq
      exact ⟨Nat.zero_lt_one, Sample.rows_wellFormed (by decide) (by decide) (by decide)⟩)
    (.inl ⟨0, rfl, rfl⟩) (Sample.partsParams_count _ _ rfl)
    (fun n => by cases n <;> exact ⟨_, rfl, rfl⟩) trivial
    (.inr fun h => by
      rcases h with h | ⟨_, h⟩
      · exact absurd (show c!"oferta" = [] from h) (by decide)
      · exact absurd (show PVal.str c!"oferta" = _ from h) (by simp))

/-- With names the same contexts change nothing. -/
example (s : Sheet) :
    (scrape Sample.ext0 (Sample.namedParams [.int 7, .str c!"oferta"]) s).1 =
      (scrape Sample.ext0 (Sample.namedParams [.none, .none]) s).1 ∧
    (scrape Sample.ext0 (Sample.namedParams [.int 7, .str c!"oferta"]) s).2.2 =
      (scrape Sample.ext0 (Sample.namedParams [.none, .none]) s).2.2 :=
  C124_named (k := 2) (by decide) (Sample.namedParams_count _ rfl) (Sample.namedParams_count _ rfl)
    ⟨_, rfl, by
      intro v hv
      simp only [List.mem_cons, List.not_mem_nil, or_false] at hv
      rcases hv with rfl | rfl
      · exact ⟨c!"a", by decide, rfl⟩
      · exact ⟨c!"b", by decide, rfl⟩⟩
    (fun n _ h2 => by simp [Sample.namedParams, Params.store, h2]) s

end Xls
