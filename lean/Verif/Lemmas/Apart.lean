/-
Tables that stand apart on one worksheet.
-/
import Verif.Spec.Apart
import Verif.Lemmas.Joined
import Verif.Lemmas.SeveralTables
import Verif.Lemmas.Moved3
import Verif.Lemmas.Result
import Verif.Props.Moved
import Verif.Props.Joined

set_option autoImplicit false

namespace Xls

open Spec

theorem Spec.CellName.moved {a : Str} (h : CellName a) : MovedCell 0 0 a a := by
  obtain ⟨r, c, h1, h2, rfl⟩ := h
  exact ⟨r, c, r, c, h1, h2, h1, h2, by omega, by omega, rfl, rfl⟩

theorem along_zero (al : Align) : along al 0 0 = 0 := by cases al <;> rfl

theorem forall₂_self {α : Type} {R : α → α → Prop} : ∀ {l : List α}, (∀ a ∈ l, R a a) → List.Forall₂ R l l
  | [], _ => .nil
  | a :: _, h => .cons (h a (by simp)) (forall₂_self fun b hb => h b (by simp [hb]))

/-- A series of a table that stays where it is. -/
theorem Spec.Simple.moved1 {n : Int} {sp : SParams} (h : Simple n sp) :
    Moved1 (InTable [sp]) sp.alignment 0 0 sp sp := by
  obtain ⟨th, h1, h2⟩ := h.timeHeader
  refine ⟨⟨rfl, h.header.moved, forall₂_self fun a ha => (h.composed a ha).moved, ?_, ?_, ?_, rfl⟩, h.positions,
    h.positions, (within_table (by simp) rfl).1⟩
  · rw [h1]
    exact .single h2.moved
  · rw [along_zero]; omega
  · rw [along_zero]
    cases sp.dataEnds with
    | none => rfl
    | some e => simp

/-! ### Cleaning -/

/-- All values are in the first `n` rows, which exist. -/
structure Holds (n : Int) (s : Sheet) : Prop where
  blank : BlankBelow n s
  rows : n ≤ s.maxRow

theorem Holds.reaching {n : Int} {s : Sheet} (h : Holds n s) {row : Int} (hr : n ≤ row) (col : Int) :
    Alike n s (reaching s row col) := ⟨rfl, h.blank, h.rows, hr⟩

/-- The dates of a table are cleaned alike on worksheets that agree on the table. -/
theorem clean_agree (ext : Ext) {n : Int} (hn : 1 ≤ n) {y : SParams} (hy : Simple n y) {s t : Sheet} (hs : Holds n s)
    (ht : Holds n t) (h : ∀ r c, InTable [y] r c → t.cells r c = s.cells r c) :
    (cleanTimeIndex ext y t).1 = (cleanTimeIndex ext y s).1 ∧
    (∀ r c, InTable [y] r c → (cleanTimeIndex ext y t).2.cells r c = (cleanTimeIndex ext y s).2.cells r c) ∧
    ∀ stop, (cleanTimeIndex ext y s).1 = .ok stop → y.dataStarts < stop := by
  have hlie : (y.alignment = .vertical ∧ y.dataStarts ≤ n) ∨ (EndGiven y ∧ y.timeMulticolumn = false) :=
    hy.lies.imp id fun k => ⟨k, hy.oneColumn⟩
  have r1 := hs.rows
  have r2 := ht.rows
  obtain ⟨a1, a2, -⟩ := cleanTimeIndex_alike ext hn hlie
    (hs.reaching (row := max s.maxRow t.maxRow) (by omega) (max s.maxCol t.maxCol))
  obtain ⟨b1, b2, -⟩ := cleanTimeIndex_alike ext hn hlie
    (ht.reaching (row := max s.maxRow t.maxRow) (by omega) (max s.maxCol t.maxCol))
  obtain ⟨m1, m2, m3⟩ := cleanTimeIndex_moved ext hy.moved1
    (s := reaching s (max s.maxRow t.maxRow) (max s.maxCol t.maxCol))
    (t := reaching t (max s.maxRow t.maxRow) (max s.maxCol t.maxCol)) ⟨by
      intro r c hrc
      rw [Int.add_zero, Int.add_zero]
      exact h r c hrc, by
      rw [along_zero]
      unfold lastUsed reaching
      split <;> exact (Int.add_zero _).symm⟩
  rw [along_zero] at m2
  have hid : ∀ x : Except Err Int, x.map (fun a => a + 0) = x := by
    intro x
    cases x with
    | error e => rfl
    | ok v => show Except.ok (v + 0) = _; rw [Int.add_zero]
  rw [hid] at m2
  refine ⟨?_, ?_, ?_⟩
  · rw [← b1, m2, a1]
  · intro r c hrc
    have := m1.cells r c hrc
    rw [Int.add_zero, Int.add_zero] at this
    rw [← b2.cells, this, a2.cells]
  · intro stop he
    rw [← a1] at he
    exact m3 stop he

theorem Holds.clean {n : Int} {s : Sheet} (h : Holds n s) (ext : Ext) {y : SParams} (hm : y.timeMulticolumn = false) :
    Holds n (cleanTimeIndex ext y s).2 := by
  refine ⟨fun r c hr => cleanTimeIndex_none hm (h.blank r c hr), ?_⟩
  have := (wider_clean ext y s).1
  have := h.rows
  omega

/-- Cleaning the dates of a series changes none but them. -/
theorem clean_dates {ext : Ext} {sp : SParams} {s : Sheet} {r c : Int} (h : ¬ DateCell sp r c) :
    (cleanTimeIndex ext sp s).2.cells r c = s.cells r c := by
  by_contra hne
  obtain ⟨hr, hc, pos, h1, h2, h3, h4⟩ := C11_only_time_column_touched r c hne
  refine h ⟨hr, hc, pos, h1, h2, ?_, h4⟩
  intro hg e he
  unfold lastPosition at h3
  rw [he] at h3
  dsimp only at h3
  rw [if_pos (fun h0 => hg.2 (by rw [he, h0]))] at h3
  exact h3

/-- The end of the dates of a series. -/
def stopOf (ext : Ext) (s : Sheet) (sp : SParams) : Int :=
  match (cleanTimeIndex ext sp s).1 with
  | .ok e => e
  | .error _ => 0

/-- The parameters of a series with the end of its dates. -/
def endedOn (ext : Ext) (s : Sheet) (sp : SParams) : SParams := endingAt (stopOf ext s sp) sp

/-- The dates of the series can be read. -/
def DatesOk (ext : Ext) (s : Sheet) (sp : SParams) : Prop := ∃ e, (cleanTimeIndex ext sp s).1 = .ok e

theorem DatesOk.stop {ext : Ext} {s : Sheet} {sp : SParams} (h : DatesOk ext s sp) :
    (cleanTimeIndex ext sp s).1 = .ok (stopOf ext s sp) := by
  obtain ⟨e, he⟩ := h
  unfold stopOf
  rw [he]

/-- The worksheet when the dates of the series `pre` are cleaned. -/
structure CleanedOf (ext : Ext) (n : Int) (s : Sheet) (all pre : List SParams) (sk : Sheet) : Prop where
  holds : Holds n sk
  done : ∀ y ∈ all, (∃ x ∈ pre, x.timeHeader = y.timeHeader) → ∀ r c, InTable [y] r c →
    sk.cells r c = (cleanTimeIndex ext y s).2.cells r c
  todo : ∀ y ∈ all, (∀ x ∈ pre, x.timeHeader ≠ y.timeHeader) → ∀ r c, InTable [y] r c → sk.cells r c = s.cells r c

/-- The ends found for the series `pre`. -/
structure FoundOf (ext : Ext) (s : Sheet) (pre : List SParams) (ends : List (Str × Int)) : Prop where
  known : ∀ x ∈ pre, ∀ th, x.timeHeader = .single th → DatesOk ext s x ∧ endOf ends th = some (stopOf ext s x)
  unknown : ∀ th, (∀ x ∈ pre, x.timeHeader ≠ .single th) → endOf ends th = none

theorem CleanedOf.start (ext : Ext) {n : Int} {s : Sheet} (h : Holds n s) (all : List SParams) :
    CleanedOf ext n s all [] s :=
  ⟨h, (fun _ _ ⟨_, hx, _⟩ => by cases hx), fun _ _ _ _ _ _ => rfl⟩

theorem CleanedOf.again {ext : Ext} {n : Int} {s sk : Sheet} {all pre : List SParams} {x y : SParams}
    (h : CleanedOf ext n s all pre sk) (hx : x ∈ pre) (hxy : x.timeHeader = y.timeHeader) :
    CleanedOf ext n s all (pre ++ [y]) sk := by
  refine ⟨h.holds, ?_, fun z hz hn => h.todo z hz fun w hw => hn w (by simp [hw])⟩
  rintro z hz ⟨w, hw, e⟩
  rcases List.mem_append.1 hw with hw | hw
  · exact h.done z hz ⟨w, hw, e⟩
  · rw [List.mem_singleton.1 hw] at e
    exact h.done z hz ⟨x, hx, hxy.trans e⟩

theorem CleanedOf.next {ext : Ext} {n : Int} (hn : 1 ≤ n) {s sk : Sheet} (hs : Holds n s) {all pre : List SParams}
    {y : SParams} (ha : Apart n all) (hy : y ∈ all) (h : CleanedOf ext n s all pre sk)
    (hnew : ∀ x ∈ pre, x.timeHeader ≠ y.timeHeader) :
    (cleanTimeIndex ext y sk).1 = (cleanTimeIndex ext y s).1 ∧
      CleanedOf ext n s all (pre ++ [y]) (cleanTimeIndex ext y sk).2 := by
  refine ⟨(clean_agree ext hn (ha.simple y hy) hs h.holds (h.todo y hy hnew)).1,
    h.holds.clean ext (ha.simple y hy).oneColumn, ?_, ?_⟩
  · intro z hz hw r c hrc
    by_cases e : y.timeHeader = z.timeHeader
    · have hd := ha.common y hy z hz e
      rw [← cleanTimeIndex_same ext hd sk]
      exact (clean_agree ext hn (ha.simple z hz) hs h.holds
        (h.todo z hz fun x hx => by rw [← e]; exact hnew x hx)).2.1 r c hrc
    · rw [clean_dates fun hd => ha.others y hy z hz e r c hd hrc]
      refine h.done z hz ?_ r c hrc
      obtain ⟨w, hw, ew⟩ := hw
      rcases List.mem_append.1 hw with hw | hw
      · exact ⟨w, hw, ew⟩
      · rw [List.mem_singleton.1 hw] at ew
        exact absurd ew e
  · intro z hz hw r c hrc
    rw [clean_dates fun hd => ha.others y hy z hz (hw y (by simp)) r c hd hrc]
    exact h.todo z hz (fun x hx => hw x (by simp [hx])) r c hrc

/-- The round of one series. -/
theorem cleanSeries_next {ext : Ext} {n : Int} (hn : 1 ≤ n) {s sk : Sheet} (hs : Holds n s)
    {all pre post : List SParams} {y : SParams} (ha : Apart n all) (hall : all = pre ++ y :: post)
    (h : CleanedOf ext n s all pre sk) {ends : List (Str × Int)} (hf : FoundOf ext s pre ends) {p : Params}
    (hp : HasSeries p (pre.map (endedOn ext s) ++ y :: post)) (is : List Nat) :
    (DatesOk ext s y ∧ ∃ p' s1 ends', cleanSeries ext (pre.length :: is) p sk ends = cleanSeries ext is p' s1 ends' ∧
      HasSeries p' ((pre ++ [y]).map (endedOn ext s) ++ post) ∧ CleanedOf ext n s all (pre ++ [y]) s1 ∧
      FoundOf ext s (pre ++ [y]) ends') ∨
    (¬ DatesOk ext s y ∧ (cleanSeries ext (pre.length :: is) p sk ends).1 ≠ .ok ()) := by
  have hy : y ∈ all := by rw [hall]; simp
  have hpre : ∀ x ∈ pre, x ∈ all := fun x hx => by rw [hall]; simp [hx]
  obtain ⟨th, hth, -⟩ := (ha.simple y hy).timeHeader
  have hi : (pre.map (endedOn ext s) ++ y :: post)[pre.length]? = some y := by
    rw [List.getElem?_append_right (by simp)]
    simp
  have hset : ∀ stop, HasSeries (if (rawValue y .dataEnds).truthy then p else setEnd p pre.length stop)
      (pre.map (endedOn ext s) ++ endingAt stop y :: post) := by
    intro stop
    have := setEnd_series (pre := pre.map (endedOn ext s)) (sp := y) (post := post) stop hp
    rw [List.length_map] at this
    exact this
  have hstep : ∀ stop ends' s1, cleanOnce ext p sk ends pre.length th = (.ok (stop, ends'), s1) →
      cleanSeries ext (pre.length :: is) p sk ends =
        cleanSeries ext is (if (rawValue y .dataEnds).truthy then p else setEnd p pre.length stop) s1 ends' := by
    intro stop ends' s1 e
    conv => lhs; unfold cleanSeries
    rw [header_of_series hp hi hth]
    dsimp only
    rw [e]
    dsimp only
    rw [index_of_series hp .dataEnds hi]
  by_cases hk : ∃ x ∈ pre, x.timeHeader = y.timeHeader
  · obtain ⟨x, hx, hxy⟩ := hk
    obtain ⟨k1, k2⟩ := hf.known x hx th (hxy.trans hth)
    have hsame := cleanTimeIndex_same ext (ha.common x (hpre x hx) y hy hxy) s
    have e1 : DatesOk ext s y := by unfold DatesOk; rw [hsame]; exact k1
    have e2 : stopOf ext s y = stopOf ext s x := by unfold stopOf; rw [hsame]
    refine .inl ⟨e1, _, sk, ends, hstep (stopOf ext s y) ends sk ?_, ?_, h.again hx hxy, ?_, ?_⟩
    · unfold cleanOnce
      rw [k2, e2]
    · rw [List.map_append, List.append_assoc]
      exact hset _
    · intro z hz th' hz'
      rcases List.mem_append.1 hz with hz | hz
      · exact hf.known z hz th' hz'
      · rw [List.mem_singleton.1 hz] at hz' ⊢
        rw [hth] at hz'
        cases hz'
        rw [e2]
        exact ⟨e1, k2⟩
    · exact fun th' hz => hf.unknown th' fun z hz' => hz z (by simp [hz'])
  · have hnew : ∀ x ∈ pre, x.timeHeader ≠ y.timeHeader := fun x hx e => hk ⟨x, hx, e⟩
    obtain ⟨c1, c2⟩ := h.next hn hs ha hy hnew
    have hun := hf.unknown th fun x hx e => hnew x hx (e.trans hth.symm)
    have honce : cleanOnce ext p sk ends pre.length th = match cleanTimeIndex ext y sk with
        | (.error e, s') => (.error e, s')
        | (.ok stop, s') =>
          if stop = 0 then (.error .assertionError, s') else (.ok (stop, ends ++ [(th, stop)]), s') := by
      unfold cleanOnce
      rw [hun]
      dsimp only
      rw [typed_of_series hp hi]
      rfl
    obtain ⟨res, s1, hres⟩ : ∃ res s1, cleanTimeIndex ext y sk = (res, s1) := ⟨_, _, rfl⟩
    rw [hres] at c1 c2 honce
    dsimp only at c1 c2
    cases res with
    | error e =>
      refine .inr ⟨?_, ?_⟩
      · rintro ⟨e', he'⟩
        rw [← c1] at he'
        cases he'
      · unfold cleanSeries
        rw [header_of_series hp hi hth]
        dsimp only
        rw [honce]
        intro hx
        cases hx
    | ok stop =>
      have hpos := (clean_agree ext hn (ha.simple y hy) hs hs fun _ _ _ => rfl).2.2 stop c1.symm
      have := (ha.simple y hy).positions.starts
      dsimp only at honce
      rw [if_neg (by omega)] at honce
      have e1 : DatesOk ext s y := ⟨stop, c1.symm⟩
      have e2 : stopOf ext s y = stop := by unfold stopOf; rw [← c1]
      refine .inl ⟨e1, _, s1, _, hstep _ _ _ honce, ?_, c2, ?_, ?_⟩
      · rw [List.map_append, List.append_assoc]
        rw [show List.map (endedOn ext s) [y] = [endingAt stop y] from by
          rw [List.map_singleton]; unfold endedOn; rw [e2]]
        exact hset _
      · intro z hz th' hz'
        rw [endOf_snoc]
        rcases List.mem_append.1 hz with hz | hz
        · obtain ⟨k1, k2⟩ := hf.known z hz th' hz'
          rw [k2]
          exact ⟨k1, rfl⟩
        · rw [List.mem_singleton.1 hz] at hz' ⊢
          rw [hth] at hz'
          cases hz'
          rw [hun]
          dsimp only
          rw [if_pos rfl, e2]
          exact ⟨e1, rfl⟩
      · intro th' hz
        rw [endOf_snoc, hf.unknown th' fun z hz' => hz z (by simp [hz'])]
        dsimp only
        rw [if_neg]
        intro e
        exact hz y (by simp) (by rw [hth, e])

theorem cleanSeries_apart {ext : Ext} {n : Int} (hn : 1 ≤ n) {s : Sheet} (hs : Holds n s) {all : List SParams}
    (ha : Apart n all) : ∀ (rest pre : List SParams) (p : Params) (sk : Sheet) (ends : List (Str × Int)),
    all = pre ++ rest → CleanedOf ext n s all pre sk → FoundOf ext s pre ends →
    HasSeries p (pre.map (endedOn ext s) ++ rest) →
    ((∀ y ∈ rest, DatesOk ext s y) ∧ ∃ p' s', cleanSeries ext (List.range' pre.length rest.length) p sk ends =
        (.ok (), p', s') ∧ HasSeries p' (all.map (endedOn ext s)) ∧ CleanedOf ext n s all all s') ∨
    ((¬ ∀ y ∈ rest, DatesOk ext s y) ∧
      (cleanSeries ext (List.range' pre.length rest.length) p sk ends).1 ≠ .ok ())
  | [], pre, p, sk, ends, hall, hc, _, hp => by
    rw [List.append_nil] at hall hp
    subst hall
    exact .inl ⟨by simp, p, sk, rfl, hp, hc⟩
  | y :: rest, pre, p, sk, ends, hall, hc, hf, hp => by
    rw [List.length_cons, List.range'_succ]
    rcases cleanSeries_next hn hs ha hall hc hf hp (List.range' (pre.length + 1) rest.length) with
      ⟨hd, p1, s1, ends1, e1, hp1, hc1, hf1⟩ | ⟨hd, e1⟩
    · rw [e1]
      have := cleanSeries_apart hn hs ha rest (pre ++ [y]) p1 s1 ends1 (by rw [hall]; simp) hc1 hf1 hp1
      rw [List.length_append, List.length_singleton] at this
      rcases this with ⟨h1, h2⟩ | ⟨h1, h2⟩
      · refine .inl ⟨?_, h2⟩
        intro z hz
        rcases List.mem_cons.1 hz with rfl | hz
        · exact hd
        · exact h1 z hz
      · exact .inr ⟨fun k => h1 fun z hz => k z (by simp [hz]), h2⟩
    · exact .inr ⟨fun k => hd (k y (by simp)), e1⟩

/-- Cleaning succeeds exactly if the dates of each series can be read. -/
theorem cleanData_apart {ext : Ext} {n : Int} (hn : 1 ≤ n) {s : Sheet} (hs : Holds n s) {sps : List SParams}
    (ha : Apart n sps) (hne : sps ≠ []) {p : Params} (hp : HasSeries p sps) :
    ((∀ y ∈ sps, DatesOk ext s y) ∧ ∃ p' s', cleanData ext p s = (.ok (), p', s') ∧
      HasSeries p' (sps.map (endedOn ext s)) ∧ CleanedOf ext n s sps sps s') ∨
    ((¬ ∀ y ∈ sps, DatesOk ext s y) ∧ (cleanData ext p s).1 ≠ .ok ()) := by
  have e : cleanData ext p s = cleanSeries ext (List.range' 0 sps.length) p s [] := by
    obtain ⟨y, rest, rfl⟩ := List.exists_cons_of_ne_nil hne
    unfold cleanData
    have hi : (y :: rest)[0]? = some y := rfl
    rw [index_of_series hp .timeMulticolumn hi]
    dsimp only
    rw [if_neg (by
      show ¬ PVal.truthy (.bool y.timeMulticolumn) = true
      rw [(ha.simple y (by simp)).oneColumn]; unfold PVal.truthy; decide)]
    have h2 : Params.len (p .timeHeaderCoord) = .ok (y :: rest).length := by
      rw [hp .timeHeaderCoord]
      unfold Params.len
      simp
    rw [h2, ← List.range_eq_range']
  rw [e]
  exact cleanSeries_apart hn hs ha sps [] p s [] rfl (.start ext hs sps)
    ⟨(fun _ h => by cases h), fun _ _ => rfl⟩ hp

end Xls
