/-
C109: series that have their dates in common, read together and alone.
-/
import Verif.Lemmas.Joined
import Verif.Props.Determined

set_option autoImplicit false

namespace Xls

open Spec

/-- The parameters of a single series. -/
def onlySeries (sp : SParams) : Params := fun n => .list [rawValue sp n]

theorem hasSeries_only (sp : SParams) : HasSeries (onlySeries sp) [sp] := fun _ => rfl

/-- Read alone, the series gives a data frame with this index and this only column. -/
def ReadAlone (ext : Ext) (s : Sheet) (freq : Str) (index : List Time) (sp : SParams) (col : Str × List Num) : Prop :=
  ∀ q, HasSeries q [sp] → (scrape ext q s).1 = .ok [⟨freq, index, [col.1], [col.2]⟩]

theorem gives_unique {ext : Ext} {s : Sheet} {pr pr' : PRange} {y z : SParams} {c d : List (Str × List Num)}
    (h : SameDates y z) (h1 : Gives ext s [pr] y c) (h2 : Gives ext s [pr'] z d) : pr' = pr := by
  obtain ⟨th, e, hth, he, -, -, hr⟩ := h1.bounds
  obtain ⟨th', e', hth', he', -, -, hr'⟩ := h2.bounds
  obtain ⟨f1, f2, f3, -, -, -, -, f8, -, f10, -, f12⟩ := SameDates.fields h
  rw [f10] at hth'
  have e1 := singleHeader_eq hth.1 hth'.1
  rw [f3, he] at he'
  cases he'
  have := hr' s (Grown.refl s)
  rw [f1, f2, f8, f12, ← e1, hr s (Grown.refl s)] at this
  cases this
  rfl

theorem readAlone_of {ext : Ext} {s s1 : Sheet} {x y : SParams} {stop : Int} {pr : PRange} {k : Str × Time × Time}
    {c : Str × List Num} (hxy : SameDates x y) (hd : Dated ext s x stop s1 pr k)
    (hg : Gives ext s1 [pr] (endingAt stop y) [c]) {q : Params} (hq : HasSeries q [y]) :
    (scrape ext q s).1 = match frameOf ext ⟨k, pr, [c.1], [c.2]⟩ with
      | .ok f => .ok [f]
      | .error e => .error e := by
  rw [scrape_dated (cols := [c]) hq (by simp) (by
    intro z hz
    rw [List.mem_singleton] at hz
    rw [hz]
    exact hxy) hd (.cons hg .nil)]
  rfl

/-- C109. Series of one frequency that have their dates in common are read together exactly if each of them alone
gives a data frame, all with the same index. Then the columns of the data frame are those of the single ones, in the
order of the series, under their own names or, if that is taken, an indexed one. -/
theorem C109_joined (ext : Ext) {p : Params} {s : Sheet} {sps : List SParams} (hp : HasSeries p sps) (hne : sps ≠ [])
    (hs : ∀ x ∈ sps, ∀ y ∈ sps, SameDates x y) (hf : ∀ x ∈ sps, x.frequency.length = 1) :
    (∀ fs, (scrape ext p s).1 = .ok fs → ∃ freq index cols columns,
      fs = [⟨freq, index, columns, cols.map Prod.snd⟩] ∧ ColumnsOf (cols.map Prod.fst) columns ∧
      List.Forall₂ (ReadAlone ext s freq index) sps cols) ∧
    (∀ freq index cols, List.Forall₂ (ReadAlone ext s freq index) sps cols → ∃ columns,
      (scrape ext p s).1 = .ok [⟨freq, index, columns, cols.map Prod.snd⟩] ∧
      ColumnsOf (cols.map Prod.fst) columns) := by
  obtain ⟨x, rest, rfl⟩ := List.exists_cons_of_ne_nil hne
  have hx : ∀ y ∈ x :: rest, SameDates x y := hs x (by simp)
  have hfx := hf x (by simp)
  have hcols : ∀ cols : List (Str × List Num), ColumnsOf (cols.map Prod.fst) (addNames [] (cols.map Prod.fst)) := by
    intro cols
    simpa using addNames_columnsOf .nil (cols.map Prod.fst)
  have hlen : ∀ cols : List (Str × List Num),
      (addNames [] (cols.map Prod.fst)).length = (cols.map Prod.snd).length := by
    intro cols
    rw [addNames_length]
    simp
  have hne' : ∀ cols : List (Str × List Num), cols ≠ [] → addNames [] (cols.map Prod.fst) ≠ [] := by
    intro cols hc h
    have := hlen cols
    rw [h] at this
    simp only [List.length_nil, List.length_map] at this
    exact hc (List.length_eq_zero_iff.1 this.symm)
  constructor
  · intro fs h
    obtain ⟨stop, s1, pr, k, cols, hd, hg⟩ := scrape_inv hp hne hx hfx h
    have hcne : cols ≠ [] := forall₂_nonempty hg hne
    rw [scrape_dated hp hne hx hd hg] at h
    split at h
    next f hfr =>
      cases h
      obtain ⟨e1, e2, e3⟩ := (frameOf_join (hlen cols) (hne' cols hcne) f).1 hfr
      refine ⟨f.freq, f.index, cols, f.columns, ?_, ?_, ?_⟩
      · rw [← e2]
      · rw [e1]
        exact hcols cols
      · refine forall₂_of_get hg.length_eq fun i y c hi hc => ?_
        obtain ⟨hi', rfl⟩ := List.getElem?_eq_some_iff.1 hi
        obtain ⟨hc', rfl⟩ := List.getElem?_eq_some_iff.1 hc
        intro q hq
        have hgi := hg.get hi' hc'
        simp only [List.get_eq_getElem] at hgi
        rw [readAlone_of (hx _ (List.getElem_mem hi')) hd hgi hq, e3 _ (List.mem_map_of_mem (List.getElem_mem hc'))]
    · cases h
  · intro freq index cols hall
    have hcne : cols ≠ [] := forall₂_nonempty hall hne
    -- the dates, from the first series
    obtain ⟨c0, crest, rfl⟩ := List.exists_cons_of_ne_nil hcne
    have h0 : ReadAlone ext s freq index x c0 := by cases hall; assumption
    obtain ⟨stop, s1, pr, k, cols0, hd, hg0⟩ := scrape_inv (hasSeries_only x) (by simp) (x := x) (by
      intro z hz
      rw [List.mem_singleton] at hz
      rw [hz]
      exact hx x (by simp)) hfx (h0 _ (hasSeries_only x))
    have hx0 : ∃ c, Gives ext s1 [pr] (endingAt stop x) [c] := by
      cases hg0 with
      | cons h _ => exact ⟨_, h⟩
    obtain ⟨g0, hg0⟩ := hx0
    -- what each series gives
    have each : ∀ y c, y ∈ x :: rest → ReadAlone ext s freq index y c → Gives ext s1 [pr] (endingAt stop y) [c] ∧
        frameOf ext ⟨k, pr, [c.1], [c.2]⟩ = .ok ⟨freq, index, [c.1], [c.2]⟩ := by
      intro y c hy hc
      have hyx : ∀ z ∈ [y], SameDates x z := by
        intro z hz
        rw [List.mem_singleton] at hz
        rw [hz]
        exact hx y hy
      obtain ⟨stop', s1', pr', k', cols', hd', hg'⟩ := scrape_inv (hasSeries_only y) (by simp) hyx hfx
        (hc _ (hasSeries_only y))
      have e := hd'.clean
      rw [hd.clean] at e
      cases e
      have : ∃ c', Gives ext s1 [pr'] (endingAt stop y) [c'] := by
        cases hg' with
        | cons h _ => exact ⟨_, h⟩
      obtain ⟨c', hc'⟩ := this
      have := gives_unique (endingAt_sameDates (hx y hy) stop) hg0 hc'
      subst this
      have ha := readAlone_of (hx y hy) hd hc' (hasSeries_only y)
      rw [hc _ (hasSeries_only y)] at ha
      split at ha
      next f hfr =>
        cases ha
        obtain ⟨e1, e2, -⟩ := (frameOf_join (cols := [c'.1]) (data := [c'.2]) rfl (by simp) _).1 hfr
        dsimp only at e1 e2
        have e3 : c = c' := Prod.ext (List.singleton_inj.1 e1) (List.singleton_inj.1 e2)
        subst e3
        exact ⟨hc', hfr⟩
      · cases ha
    have hg : List.Forall₂ (fun y c => Gives ext s1 [pr] (endingAt stop y) [c]) (x :: rest) (c0 :: crest) := by
      refine forall₂_of_get hall.length_eq fun i y c hi hc => ?_
      obtain ⟨hi', rfl⟩ := List.getElem?_eq_some_iff.1 hi
      obtain ⟨hc', rfl⟩ := List.getElem?_eq_some_iff.1 hc
      exact (each _ _ (List.getElem_mem hi') (hall.get hi' hc')).1
    refine ⟨addNames [] ((c0 :: crest).map Prod.fst), ?_, hcols _⟩
    rw [scrape_dated hp hne hx hd hg]
    have : frameOf ext ⟨k, pr, addNames [] ((c0 :: crest).map Prod.fst), (c0 :: crest).map Prod.snd⟩ =
        .ok ⟨freq, index, addNames [] ((c0 :: crest).map Prod.fst), (c0 :: crest).map Prod.snd⟩ := by
      refine (frameOf_join (hlen _) (hne' _ hcne) _).2 ⟨rfl, rfl, fun v hv name => ?_⟩
      obtain ⟨c, hc, rfl⟩ := List.mem_map.1 hv
      obtain ⟨y, hy, hyc⟩ := forall₂_right hall c hc
      have := (each y c hy hyc).2
      have k2 := (frameOf_join (cols := [c.1]) (data := [c.2]) rfl (by simp) _).1 this
      exact k2.2.2 c.2 (by simp) name
    rw [this]

/-- C109. If the series are read, so is any selection of them, in any order: each gets the same values under the same
index. -/
theorem C109_selection (ext : Ext) {p p' : Params} {s : Sheet} {sps sps' : List SParams} (hp : HasSeries p sps)
    (hp' : HasSeries p' sps') (hne : sps' ≠ []) (hsel : ∀ x ∈ sps', x ∈ sps)
    (hs : ∀ x ∈ sps, ∀ y ∈ sps, SameDates x y) (hf : ∀ x ∈ sps, x.frequency.length = 1) {fs : List Frame}
    (h : (scrape ext p s).1 = .ok fs) :
    ∃ freq index columns columns' cols cols', fs = [⟨freq, index, columns, cols.map Prod.snd⟩] ∧
      ColumnsOf (cols.map Prod.fst) columns ∧
      (scrape ext p' s).1 = .ok [⟨freq, index, columns', cols'.map Prod.snd⟩] ∧
      ColumnsOf (cols'.map Prod.fst) columns' ∧ cols.length = sps.length ∧
      List.Forall₂ (fun x c => (x, c) ∈ sps.zip cols) sps' cols' := by
  have hne0 : sps ≠ [] := by
    obtain ⟨x, hx⟩ := List.exists_mem_of_ne_nil _ hne
    exact List.ne_nil_of_mem (hsel x hx)
  obtain ⟨freq, index, cols, columns, rfl, hc, hall⟩ := (C109_joined ext hp hne0 hs hf).1 fs h
  obtain ⟨cols', hcols'⟩ : ∃ cols', List.Forall₂ (fun x c => (x, c) ∈ sps.zip cols) sps' cols' := by
    clear hne hp'
    induction sps' with
    | nil => exact ⟨[], .nil⟩
    | cons y ys ih =>
      obtain ⟨cs, hcs⟩ := ih fun x hx => hsel x (by simp [hx])
      obtain ⟨i, hi, rfl⟩ := List.getElem_of_mem (hsel y (by simp))
      have hl := hall.length_eq
      refine ⟨cols[i]'(by omega) :: cs, .cons ?_ hcs⟩
      rw [show (sps[i], cols[i]) = (sps.zip cols)[i]'(by rw [List.length_zip]; omega) from List.getElem_zip.symm]
      exact List.getElem_mem _
  have hall' : List.Forall₂ (ReadAlone ext s freq index) sps' cols' := by
    refine hcols'.imp fun x c hxc => ?_
    obtain ⟨i, hi, he⟩ := List.getElem_of_mem hxc
    rw [List.getElem_zip] at he
    rw [List.length_zip] at hi
    cases he
    exact hall.get (by omega) (by omega)
  obtain ⟨columns', h2, hc2⟩ := (C109_joined ext hp' hne (fun x hx y hy => hs x (hsel x hx) y (hsel y hy))
    (fun x hx => hf x (hsel x hx))).2 freq index cols' hall'
  exact ⟨freq, index, columns, columns', cols, cols', rfl, hc, h2, hc2, hall.length_eq.symm, hcols'⟩

/-- A call that asks for this series only gives a data frame with this index and this only column, whatever objects
there are. -/
def CallAlone (ext : Ext) (wb : List Nat) (w : World) (name title : Str) (safe preserve : Bool) (freq : Str)
    (index : List Time) (sp : SParams) (col : Str × List Num) : Prop :=
  ∀ w1 given q, w1.sheets = w.sheets → w1.nextSheet = w.nextSheet → GivenWith given w1 q → HasSeries q [sp] →
    outcome (getDataFrames ext wb given name safe preserve w1) =
      .ok (.dfs (.one ⟨freq, index, [col.1], [col.2]⟩), title)

theorem callAlone_iff {ext : Ext} {wb : List Nat} {w : World} {name : Str} {safe preserve : Bool} {r : Nat}
    (hreq : Requested ext wb w name r) (hwb : ∀ q ∈ wb, q < w.nextSheet ∧ WellFormed (w.sheets q)) {freq : Str}
    {index : List Time} {sp : SParams} {col : Str × List Num} :
    CallAlone ext wb w name (w.sheets r).title safe preserve freq index sp col ↔
      ReadAlone ext (w.sheets r) freq index sp col := by
  have key : ∀ w1 given q, w1.sheets = w.sheets → w1.nextSheet = w.nextSheet → GivenWith given w1 q →
      HasSeries q [sp] → outcome (getDataFrames ext wb given name safe preserve w1) =
        (scrape ext q (w.sheets r)).1.map fun fs => (.dfs (unwrap fs), (w.sheets r).title) := by
    intro w1 given q h1 h2 hg hq
    have hreq1 : Requested ext wb w1 name r := by
      unfold Requested at hreq ⊢
      rw [h1]
      exact hreq
    obtain ⟨pr, w', e⟩ := call_result ext wb w1 given name safe preserve r hreq1 (by rw [h1, h2]; exact hwb) hg
      (complete_series hq (by simp))
      (show scrape ext q (w1.sheets r) = ((scrape ext q (w1.sheets r)).1, _, _) from rfl)
    rw [e, h1]
    unfold outcome
    cases (scrape ext q (w.sheets r)).1 <;> rfl
  constructor
  · intro h q hq
    have h1 := h { w with params := fun _ => q } (.object 0) q rfl rfl (.inl ⟨0, rfl, rfl⟩) hq
    rw [key { w with params := fun _ => q } (.object 0) q rfl rfl (.inl ⟨0, rfl, rfl⟩) hq] at h1
    revert h1
    cases (scrape ext q (w.sheets r)).1 with
    | error e => intro h1; cases h1
    | ok fs =>
      intro h1
      have h2 : unwrap fs = .one ⟨freq, index, [col.1], [col.2]⟩ := by
        have := Except.ok.inj h1
        exact Answer.dfs.inj (Prod.mk.inj this).1
      unfold unwrap at h2
      match fs, h2 with
      | [f], h2 =>
        cases h2
        rfl
  · intro h w1 given q h1 h2 hg hq
    rw [key w1 given q h1 h2 hg hq, h q hq]
    rfl

/-- C109 for calls. -/
theorem C109_call (ext : Ext) (wb : List Nat) (w : World) (given : Given) (name : Str) (safe preserve : Bool) (r : Nat)
    {p : Params} {sps : List SParams} (hreq : Requested ext wb w name r)
    (hwb : ∀ q ∈ wb, q < w.nextSheet ∧ WellFormed (w.sheets q)) (hgiven : GivenWith given w p) (hp : HasSeries p sps)
    (hne : sps ≠ []) (hs : ∀ x ∈ sps, ∀ y ∈ sps, SameDates x y) (hf : ∀ x ∈ sps, x.frequency.length = 1) :
    (∀ a title, outcome (getDataFrames ext wb given name safe preserve w) = .ok (a, title) →
      ∃ freq index cols columns, a = .dfs (.one ⟨freq, index, columns, cols.map Prod.snd⟩) ∧
      title = (w.sheets r).title ∧ ColumnsOf (cols.map Prod.fst) columns ∧
      List.Forall₂ (CallAlone ext wb w name title safe preserve freq index) sps cols) ∧
    (∀ freq index cols,
      List.Forall₂ (CallAlone ext wb w name (w.sheets r).title safe preserve freq index) sps cols → ∃ columns,
      outcome (getDataFrames ext wb given name safe preserve w) =
        .ok (.dfs (.one ⟨freq, index, columns, cols.map Prod.snd⟩), (w.sheets r).title) ∧
      ColumnsOf (cols.map Prod.fst) columns) := by
  obtain ⟨pr, w', e⟩ := call_result ext wb w given name safe preserve r hreq hwb hgiven (complete_series hp hne)
    (show scrape ext p (w.sheets r) = ((scrape ext p (w.sheets r)).1, _, _) from rfl)
  obtain ⟨j1, j2⟩ := C109_joined ext (s := w.sheets r) hp hne hs hf
  constructor
  · intro a title h
    rw [e] at h
    cases hr : (scrape ext p (w.sheets r)).1 with
    | error er => rw [hr] at h; cases h
    | ok fs =>
      rw [hr] at h
      obtain ⟨freq, index, cols, columns, rfl, hc, hall⟩ := j1 fs hr
      cases h
      exact ⟨freq, index, cols, columns, rfl, rfl, hc, hall.imp fun x c hx => (callAlone_iff hreq hwb).2 hx⟩
  · intro freq index cols hall
    obtain ⟨columns, h1, h2⟩ := j2 freq index cols (hall.imp fun x c hx => (callAlone_iff hreq hwb).1 hx)
    refine ⟨columns, ?_, h2⟩
    rw [e, h1]
    rfl

/-! ### Examples -/

theorem quarters_sameDates (a b : Str) : SameDates (Sample.quarterSeries a) (Sample.quarterSeries b) := rfl

theorem quarters_alone : List.Forall₂ (ReadAlone Sample.ext0 Sample.quarterSheet c!"QS-JAN"
    [⟨2000, 7, 1, 0⟩, ⟨2000, 10, 1, 0⟩, ⟨2001, 1, 1, 0⟩]) [Sample.quarterSeries c!"B1", Sample.quarterSeries c!"C1"]
    [(c!"PBI", [.fin 10, .fin 11, .fin 12]), (c!"IPC", [.fin 1, .fin 2, .fin 3])] := by
  refine .cons (fun q hq => ?_) (.cons (fun q hq => ?_) .nil)
  · have : q = onlySeries (Sample.quarterSeries c!"B1") := funext hq
    subst this
    decide +kernel
  · have : q = onlySeries (Sample.quarterSeries c!"C1") := funext hq
    subst this
    decide +kernel

/-- Two series of quarters, from what each gives alone. -/
example : ∃ columns, (scrape Sample.ext0
      (Sample.paramsOf [Sample.quarterSeries c!"B1", Sample.quarterSeries c!"C1"]) Sample.quarterSheet).1 =
    .ok [⟨c!"QS-JAN", [⟨2000, 7, 1, 0⟩, ⟨2000, 10, 1, 0⟩, ⟨2001, 1, 1, 0⟩], columns,
      [[.fin 10, .fin 11, .fin 12], [.fin 1, .fin 2, .fin 3]]⟩] ∧ ColumnsOf [c!"PBI", c!"IPC"] columns := by
  refine (C109_joined Sample.ext0 (sps := [Sample.quarterSeries c!"B1", Sample.quarterSeries c!"C1"]) (fun _ => rfl)
    (by simp) ?_ ?_).2 _ _ _ quarters_alone
  · intro x hx y hy
    simp only [List.mem_cons, List.not_mem_nil, or_false] at hx hy
    rcases hx with rfl | rfl <;> rcases hy with rfl | rfl <;> rfl
  · intro x hx
    simp only [List.mem_cons, List.not_mem_nil, or_false] at hx
    rcases hx with rfl | rfl <;> rfl

/-- The other way round, and one of them twice. -/
example : ∃ freq index columns cols,
    (scrape Sample.ext0 (Sample.paramsOf [Sample.quarterSeries c!"C1", Sample.quarterSeries c!"B1",
      Sample.quarterSeries c!"C1"]) Sample.quarterSheet).1 = .ok [⟨freq, index, columns, cols⟩] ∧ cols.length = 3 := by
  have hs : ∀ x ∈ [Sample.quarterSeries c!"B1", Sample.quarterSeries c!"C1"],
      ∀ y ∈ [Sample.quarterSeries c!"B1", Sample.quarterSeries c!"C1"], SameDates x y := by
    intro x hx y hy
    simp only [List.mem_cons, List.not_mem_nil, or_false] at hx hy
    rcases hx with rfl | rfl <;> rcases hy with rfl | rfl <;> rfl
  have hf : ∀ x ∈ [Sample.quarterSeries c!"B1", Sample.quarterSeries c!"C1"], x.frequency.length = 1 := by
    intro x hx
    simp only [List.mem_cons, List.not_mem_nil, or_false] at hx
    rcases hx with rfl | rfl <;> rfl
  obtain ⟨columns0, h, -⟩ := (C109_joined Sample.ext0 (s := Sample.quarterSheet)
    (p := Sample.paramsOf [Sample.quarterSeries c!"B1", Sample.quarterSeries c!"C1"])
    (sps := [Sample.quarterSeries c!"B1", Sample.quarterSeries c!"C1"]) (fun _ => rfl) (by simp) hs hf).2 _ _ _
    quarters_alone
  obtain ⟨freq, index, columns, columns', cols, cols', -, -, h2, -, -, h3⟩ := C109_selection Sample.ext0
    (p' := Sample.paramsOf [Sample.quarterSeries c!"C1", Sample.quarterSeries c!"B1", Sample.quarterSeries c!"C1"])
    (sps' := [Sample.quarterSeries c!"C1", Sample.quarterSeries c!"B1", Sample.quarterSeries c!"C1"])
    (fun _ => rfl) (fun _ => rfl) (by simp) (by
      intro x hx
      simp only [List.mem_cons, List.not_mem_nil, or_false] at hx ⊢
      rcases hx with rfl | rfl | rfl <;> simp) hs hf h
  refine ⟨freq, index, columns', _, h2, ?_⟩
  rw [List.length_map, ← h3.length_eq]
  rfl

end Xls
