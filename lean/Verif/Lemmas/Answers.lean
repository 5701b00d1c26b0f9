/-
What holds of the worksheet and of what is read from it holds of every data frame given back.
-/
import Verif.Spec.Result
import Verif.Lemmas.Scraper
import Verif.Props.Scraper

set_option autoImplicit false

namespace Xls

open Spec

/-! ### Cleaning -/

/-- A property of worksheets that cleaning one time index keeps. -/
def CleanKeeps (ext : Ext) (V : Sheet → Prop) : Prop :=
  ∀ (sp : SParams) (s : Sheet), V s → V (cleanTimeIndex ext sp s).2

theorem cleanMulti_keeps {ext : Ext} {V : Sheet → Prop} (hV : CleanKeeps ext V) {p : Params} {s : Sheet}
    (hs : V s) : V (cleanMulti ext p s).2.2 := by
  unfold cleanMulti
  split
  · exact hs
  next sp _ =>
    have hv := hV sp s hs
    split
    next h => rw [h] at hv; exact hv
    next h =>
      rw [h] at hv
      split
      · exact hv
      · split
        · exact hv
        · split
          · exact hv
          · exact hv

theorem cleanOnce_keeps {ext : Ext} {V : Sheet → Prop} (hV : CleanKeeps ext V) {p : Params} {s : Sheet}
    {ends : List (Str × Int)} {i : Nat} {header : Str} (hs : V s) :
    V (cleanOnce ext p s ends i header).2 := by
  unfold cleanOnce
  split
  · exact hs
  · split
    · exact hs
    next sp _ =>
      have hv := hV sp s hs
      split
      next h => rw [h] at hv; exact hv
      next h =>
        rw [h] at hv
        split
        · exact hv
        · exact hv

theorem cleanSeries_keeps {ext : Ext} {V : Sheet → Prop} (hV : CleanKeeps ext V) : ∀ {is : List Nat}
    {p : Params} {s : Sheet} {ends : List (Str × Int)}, V s → V (cleanSeries ext is p s ends).2.2
  | [], p, s, ends, hs => hs
  | i :: is, p, s, ends, hs => by
    unfold cleanSeries
    split
    · exact hs
    next header _ =>
      have hv := cleanOnce_keeps hV (p := p) (ends := ends) (i := i) (header := header) hs
      split
      next h => rw [h] at hv; exact hv
      next h =>
        rw [h] at hv
        split
        · exact hv
        · exact cleanSeries_keeps hV hv

theorem cleanData_keeps {ext : Ext} {V : Sheet → Prop} (hV : CleanKeeps ext V) {p : Params} {s : Sheet}
    (hs : V s) : V (cleanData ext p s).2.2 := by
  unfold cleanData
  split
  · exact hs
  · split
    · exact cleanMulti_keeps hV hs
    · split
      · exact hs
      · exact cleanSeries_keeps hV hs

/-! ### Attempts -/

/-- Whatever is read from a worksheet with `V` are data frames with `F`. -/
def Yields (ext : Ext) (V : Sheet → Prop) (F : Frame → Prop) : Prop :=
  ∀ {p p' : Params} {s s' : Sheet} {fs : List Frame}, V s → scrape ext p s = (.ok fs, p', s') →
    ∀ f ∈ fs, F f

theorem inDfs_unwrap {fs : List Frame} {f : Frame} (h : InDfs f (unwrap fs)) : f ∈ fs := by
  match fs with
  | [] => exact h
  | [g] => exact List.mem_singleton.2 h
  | _ :: _ :: _ => exact h

theorem runOn_yields {ext : Ext} {V : Sheet → Prop} {F : Frame → Prop} (hy : Yields ext V F) {ws pr : Nat}
    {w w' : World} {fs : List Frame} (hs : V (w.sheets ws)) (h : runOn ext ws pr w = (.ok fs, w')) :
    ∀ f ∈ fs, F f := by
  unfold runOn at h
  rcases hsc : scrape ext (w.params pr) (w.sheets ws) with ⟨r, p, s⟩
  rw [hsc] at h
  cases h
  exact hy hs hsc

theorem attemptLoop_yields {ext : Ext} {V : Sheet → Prop} {F : Frame → Prop} (hy : Yields ext V F)
    (hcopy : ∀ s, V s → V (copySheet s)) {safe : Bool} {ws : Nat} :
    ∀ {prs : List Nat} {w : World}, ws < w.nextSheet → V (w.sheets ws) →
    ∀ r ∈ (attemptLoop ext safe ws prs w).1, ∀ f, InDfs f r.1 → F f
  | [], w, _, _ => by intro r h; cases h
  | pr :: prs, w, hws, hs => by
    unfold attemptLoop
    dsimp only [World.newSheet]
    rcases hrun : runOn ext w.nextSheet pr _ with ⟨res, w2⟩
    obtain ⟨f1, _, f3, _⟩ := runOn_frame ext w.nextSheet pr
      { w with
        sheets := fun r => if r = w.nextSheet then copySheet (w.sheets ws) else w.sheets r
        nextSheet := w.nextSheet + 1 }
    rw [hrun] at f1 f3
    have hw2 : w2.sheets ws = w.sheets ws := by
      rw [f1 ws (by omega)]
      show (if ws = w.nextSheet then _ else w.sheets ws) = _
      rw [if_neg (by omega)]
    have hlt : ws < w2.nextSheet := by
      have : w2.nextSheet = w.nextSheet + 1 := f3
      omega
    have ih := attemptLoop_yields hy hcopy (safe := safe) (prs := prs) hlt (by rw [hw2]; exact hs)
    cases res with
    | error e => exact ih
    | ok fs =>
      have hfs : ∀ f ∈ fs, F f := by
        refine runOn_yields hy ?_ hrun
        show V (if w.nextSheet = w.nextSheet then copySheet (w.sheets ws) else _)
        rw [if_pos rfl]
        exact hcopy _ hs
      dsimp only
      split
      · intro r hr f hf
        rcases List.mem_cons.1 hr with e | e
        · rw [e] at hf
          exact hfs f (inDfs_unwrap hf)
        · exact ih r e f hf
      · intro r hr f hf
        rw [List.mem_singleton] at hr
        rw [hr] at hf
        exact hfs f (inDfs_unwrap hf)

theorem removeDuplicates_sub : ∀ {rs unique out : List (Dfs × Nat)},
    removeDuplicates unique rs = .ok out → ∀ r ∈ out, r ∈ unique ∨ r ∈ rs
  | [], unique, out, h => by
    unfold removeDuplicates at h
    cases h
    exact fun r hr => .inl hr
  | r :: rs, unique, out, h => by
    unfold removeDuplicates at h
    split at h
    · cases h
    · intro x hx
      rcases removeDuplicates_sub h x hx with e | e
      · exact .inl e
      · exact .inr (List.mem_cons_of_mem _ e)
    · intro x hx
      rcases removeDuplicates_sub h x hx with e | e
      · rcases List.mem_append.1 e with e | e
        · exact .inl e
        · rw [List.mem_singleton] at e
          exact .inr (by rw [e]; simp)
      · exact .inr (List.mem_cons_of_mem _ e)

theorem answerOf_sub {last : Option Nat} {rs : List (Dfs × Nat)} {a : Answer} {pr : Nat} {f : Frame}
    (h : answerOf last rs = .ok (a, pr)) (hf : InAnswer f a) : ∃ r ∈ rs, InDfs f r.1 := by
  unfold answerOf at h
  split at h
  · cases h
  next d q => cases h; exact ⟨(d, pr), by simp, hf⟩
  · split at h
    · cases h
      obtain ⟨d, hd, hfd⟩ := hf
      obtain ⟨r, hr, rfl⟩ := List.mem_map.1 hd
      exact ⟨r, hr, hfd⟩
    · cases h

theorem scraperFrames_yields {ext : Ext} {V : Sheet → Prop} {F : Frame → Prop} (hy : Yields ext V F)
    (hcopy : ∀ s, V s → V (copySheet s)) {ws pr : Nat} {safe : Bool} {w w' : World}
    {a : Answer} {q : Nat} (hws : ws < w.nextSheet) (hs : V (w.sheets ws))
    (h : scraperFrames ext ws pr safe w = (.ok (a, q), w')) (f : Frame) (hf : InAnswer f a) : F f := by
  have hone : ∀ {pr : Nat} {w1 : World}, w1.sheets ws = w.sheets ws →
      (match runOn ext ws pr w1 with
        | (.error e, w2) => ((.error e, w2) : Except Err (Answer × Nat) × World)
        | (.ok fs, w2) => (.ok (.dfs (unwrap fs), pr), w2)) = (.ok (a, q), w') → F f := by
    intro pr w1 hw1 h
    rcases hrun : runOn ext ws pr w1 with ⟨res, w2⟩
    rw [hrun] at h
    cases res with
    | error e => cases h
    | ok fs =>
      cases h
      exact runOn_yields hy (by rw [hw1]; exact hs) hrun f (inDfs_unwrap hf)
  unfold scraperFrames at h
  split at h
  · cases h
  · exact hone rfl h
  next ps _ =>
    obtain ⟨_, n2, n3, _, _, _⟩ := newParamsAll_spec ps w
    rcases hn : w.newParamsAll ps with ⟨prs, w1⟩
    rw [hn] at h n2 n3
    dsimp only at h n2 n3
    split at h
    next heq => cases heq; exact hone (by rw [n2]) h
    next heq =>
      cases heq
      have hl := attemptLoop_yields hy hcopy (safe := safe) (ws := ws) (prs := prs) (w := w1) (by omega)
        (by rw [n2]; exact hs)
      rcases hloop : attemptLoop ext safe ws prs w1 with ⟨results, w2⟩
      rw [hloop] at h hl
      dsimp only at h hl
      split at h
      · cases h
      next unique hu =>
        injection h with h _
        obtain ⟨r, hr, hfr⟩ := answerOf_sub h hf
        rcases removeDuplicates_sub hu r hr with e | e
        · cases e
        · exact hl r e f hfr

/-! ### Copies -/

theorem copyCells_title (s : Sheet) (row : Nat) : ∀ (cols : List Nat) (t : Sheet),
    (copyCells s row cols t).title = t.title
  | [], _ => rfl
  | _ :: cols, t => copyCells_title s row cols _

theorem copyAllRows_title (s : Sheet) (ncols : Nat) : ∀ (rows : List Nat) (t : Sheet),
    (copyAllRows s ncols rows t).title = t.title
  | [], _ => rfl
  | row :: rows, t => (copyAllRows_title s ncols rows _).trans (copyCells_title s row _ t)

theorem copySheet_title (s : Sheet) : (copySheet s).title = s.title := copyAllRows_title s _ _ _

theorem copyBook_copies : ∀ (wb : List Nat) (w : World), (∀ r ∈ wb, r < w.nextSheet) →
    ∀ q ∈ (copyBook wb w).1, q < (copyBook wb w).2.nextSheet ∧
      ∃ r ∈ wb, (copyBook wb w).2.sheets q = copySheet (w.sheets r)
  | [], w, _ => by intro r h; cases h
  | r :: wb, w, h => by
    let w1 : World := (w.newSheet (copySheet (w.sheets r))).2
    have e : copyBook (r :: wb) w = (w.nextSheet :: (copyBook wb w1).1, (copyBook wb w1).2) := rfl
    have hold : ∀ q < w.nextSheet, w1.sheets q = w.sheets q := by
      intro q hq
      show (if q = w.nextSheet then _ else w.sheets q) = _
      rw [if_neg (by omega)]
    have hnext : w1.nextSheet = w.nextSheet + 1 := rfl
    obtain ⟨k1, k2, _, _, _⟩ := copyBook_kept wb w1
    have ih := copyBook_copies wb w1 fun q hq => by
      have := h q (List.mem_cons_of_mem _ hq)
      omega
    rw [e]
    intro q hq
    rcases List.mem_cons.1 hq with e | e
    · rw [e]
      refine ⟨by dsimp only; omega, r, by simp, ?_⟩
      rw [show ((w.nextSheet :: (copyBook wb w1).1, (copyBook wb w1).2).2).sheets w.nextSheet =
        (copyBook wb w1).2.sheets w.nextSheet from rfl, k1 w.nextSheet (by omega)]
      show (if w.nextSheet = w.nextSheet then copySheet (w.sheets r) else _) = _
      rw [if_pos rfl]
    · obtain ⟨i1, r', i2, i3⟩ := ih q e
      refine ⟨i1, r', List.mem_cons_of_mem _ i2, ?_⟩
      rw [← hold r' (h r' (List.mem_cons_of_mem _ i2))]
      exact i3

/-! ### The entry point -/

theorem sheetNamed_title {wb : List Nat} {name : Str} {w : World} {ws : Nat}
    (h : sheetNamed wb name w = .ok ws) : ws ∈ wb ∧ (w.sheets ws).title = name := by
  unfold sheetNamed at h
  split at h
  next r hr =>
    cases h
    exact ⟨List.mem_of_find?_eq_some hr, by simpa using List.find?_some hr⟩
  · cases h

/-- What holds of the sheets with the name that is given back, holds of the data frames. -/
theorem getDataFrames_yields {ext : Ext} {V : Sheet → Prop} {F : Frame → Prop} (hy : Yields ext V F)
    (hcopy : ∀ s, V s → V (copySheet s)) {wb : List Nat} {given : Given} {name : Str}
    {safe preserve : Bool} {w w' : World} {a : Answer} {nm : Str} {pr : Nat}
    (hwb : ∀ r ∈ wb, r < w.nextSheet)
    (h : getDataFrames ext wb given name safe preserve w = (.ok (a, nm, pr), w'))
    (hV : ∀ r ∈ wb, (w.sheets r).title = nm → V (w.sheets r)) (f : Frame) (hf : InAnswer f a) : F f := by
  unfold getDataFrames at h
  have hbook : ∀ wb1 w1, (if preserve then copyBook wb w else (wb, w)) = (wb1, w1) →
      ∀ q ∈ wb1, q < w1.nextSheet ∧ ∃ r ∈ wb, w1.sheets q = w.sheets r ∨
        w1.sheets q = copySheet (w.sheets r) := by
    intro wb1 w1 heq
    split at heq
    · have := copyBook_copies wb w hwb
      rw [heq] at this
      intro q hq
      obtain ⟨c1, r, c2, c3⟩ := this q hq
      exact ⟨c1, r, c2, .inr c3⟩
    · cases heq
      exact fun q hq => ⟨hwb q hq, q, hq, .inl rfl⟩
  rcases hc : (if preserve then copyBook wb w else (wb, w)) with ⟨wb1, w1⟩
  have hv := hbook wb1 w1 hc
  rw [hc] at h
  dsimp only at h
  split at h
  · cases h
  next nm1 _ =>
    split at h
    · cases h
    next ws hws =>
      obtain ⟨hmem, htitle⟩ := sheetNamed_title hws
      obtain ⟨v1, r, hr, v2⟩ := hv ws hmem
      obtain ⟨g1, g2, _, _⟩ := givenParams_frame given w1
      rcases hg : givenParams given w1 with ⟨res, w2⟩
      rw [hg] at h g1 g2
      dsimp only at h g1 g2
      cases res with
      | error e => cases h
      | ok q =>
        dsimp only at h
        rcases hs : scraperFrames ext ws q safe w2 with ⟨out, w3⟩
        rw [hs] at h
        cases out with
        | error e => cases h
        | ok out =>
          obtain ⟨a', q'⟩ := out
          cases h
          refine scraperFrames_yields hy hcopy (by omega) ?_ hs f hf
          rw [g1]
          rcases v2 with v2 | v2
          · rw [v2]
            exact hV r hr (by rw [← v2]; exact htitle)
          · rw [v2]
            exact hcopy _ (hV r hr (by rw [← htitle, v2, copySheet_title]))

end Xls
