/-
Extraction from worksheets with the same dates and headers and other numbers.
-/
import Verif.Lemmas.Numbers
import Verif.Model.Frames

set_option autoImplicit false

namespace Xls

open Spec

theorem isAt_iff {al : Align} {hr hc pos r c : Int} : IsAt al hr hc pos r c ↔ axisCell al hr hc pos = (r, c) := by
  unfold IsAt rowOf colOf axisCell
  cases al <;> simp [eq_comm]

/-! ### One value -/

/-- What two values give: nothing, or numbers in the relation. -/
def OptRel (R : Num → Num → Prop) : Option Num → Option Num → Prop
  | none, none => True
  | some x, some y => R x y
  | _, _ => False

/-- Two outcomes: the same error, or results in the relation. -/
def ExRel {α : Type} (Q : α → α → Prop) (a b : Except Err α) : Prop :=
  (∃ e, a = .error e ∧ b = .error e) ∨ ∃ x y, a = .ok x ∧ b = .ok y ∧ Q x y

/-- `v in missing_value` for a number that is not among them. -/
def numberIn : PVal → Except Err Bool
  | .list _ => .ok false
  | .dict _ => .ok false
  | _ => .error .typeError

theorem number_notMark {sp : SParams} {v : Cell} {x : Num} (hv : HoldsNumber v x) (hm : ¬ IsMark sp v)
    (hs : sp.missings = true) : cellIn v sp.missingValue = numberIn sp.missingValue := by
  have hm : ∀ ms, sp.missingValue = .list ms → ∀ m ∈ ms, cellEq v m = false := by
    intro ms h1 m h2
    by_contra h
    exact hm ⟨hs, ms, h1, m, h2, by simpa using h⟩
  obtain ⟨mv, hmv⟩ : ∃ mv, sp.missingValue = mv := ⟨_, rfl⟩
  rw [hmv] at hm ⊢
  cases mv with
  | list ms =>
    unfold cellIn numberIn
    dsimp only
    have : ∀ m ∈ ms, ¬ cellEq v m = true := fun m h => by rw [hm ms rfl m h]; simp
    rw [List.any_eq_false.2 this]
  | dict kvs =>
    unfold cellIn numberIn
    have : ∀ kv ∈ kvs, ¬ cellEq v (.str kv.1) = true := by
      intro kv _
      cases v with
      | int i => simp [cellEq, PVal.pyEq, PVal.number]
      | float y => cases y <;> simp [cellEq, PVal.pyEq, PVal.number]
      | _ => cases hv
    dsimp only
    rw [List.any_eq_false.2 this]
  | str t =>
    unfold cellIn numberIn
    cases v with
    | int i => rfl
    | float y => rfl
    | _ => cases hv
  | _ => rfl

theorem holdsNumber_shape {v : Cell} {x : Num} (ext : Ext) (h : HoldsNumber v x) :
    floatOf ext v = .ok x ∧ v ≠ .none ∧ stripCell v = v ∧ blankToNone v = v := by
  cases v with
  | int i => cases h; exact ⟨rfl, by simp, rfl, rfl⟩
  | float y => cases h; exact ⟨rfl, by simp, rfl, rfl⟩
  | _ => cases h

theorem noNumber_floats {ext : Ext} {v : Cell} (h : NoNumber ext v) :
    (∃ e, floatOf ext v = .error e) ∧ (∃ e, floatOf ext (stripCell v) = .error e) ∧
      validFloat ext (blankToNone v) = none := by
  cases v with
  | none => exact ⟨⟨_, rfl⟩, ⟨_, rfl⟩, rfl⟩
  | dt t => exact ⟨⟨_, rfl⟩, ⟨_, rfl⟩, rfl⟩
  | str t =>
    obtain ⟨h1, h2⟩ := h
    refine ⟨⟨.valueError, by simp [floatOf, h1]⟩, ⟨.valueError, by simp [floatOf, stripCell, h2]⟩, ?_⟩
    unfold blankToNone
    dsimp only
    split
    · rfl
    · simp [validFloat, floatOf, h1]
  | _ => cases h

theorem exRel_of {α : Type} {Q : α → α → Prop} {a : Except Err α} (h : ∀ x, a = .ok x → Q x x) : ExRel Q a a := by
  cases a with
  | error e => exact .inl ⟨e, rfl, rfl⟩
  | ok x => exact .inr ⟨x, x, rfl, rfl, h x rfl⟩

theorem mark_handled {ext : Ext} {sp : SParams} {v : Cell} (h : IsMark sp v)
    (plain : ∀ t, v = .str t → t ≠ [] ∧ strip t = t) {o : Option Num} (ho : handleValue ext sp v = .ok o) :
    o = none ∨ o = some .nan := by
  obtain ⟨hm, ms, h1, m, h2, h3⟩ := h
  have e1 : stripCell v = v := by
    cases v with
    | str t => unfold stripCell; dsimp only; rw [(plain t rfl).2]
    | _ => rfl
  have e2 : blankToNone v = v := by
    cases v with
    | str t => unfold blankToNone; dsimp only; rw [if_neg (by rw [(plain t rfl).2]; exact (plain t rfl).1)]
    | _ => rfl
  have e3 : cellIn v sp.missingValue = .ok true := by
    rw [h1]
    unfold cellIn
    dsimp only
    rw [List.any_eq_true.2 ⟨m, h2, h3⟩]
  unfold handleValue handleContinuous handleNonContinuous at ho
  rw [e1, e2, e3, if_pos hm, if_pos hm] at ho
  dsimp only at ho
  split at ho
  · split at ho
    · cases ho; exact .inl rfl
    · cases ho; exact .inr rfl
  · cases ho; exact .inr rfl

theorem handleValue_rel {ext : Ext} {R : Num → Num → Prop} (hR : R .nan .nan) {sp : SParams} {v w : Cell}
    (h : SameValue ext R sp v w) : ExRel (OptRel R) (handleValue ext sp v) (handleValue ext sp w) := by
  cases h with
  | mark h plain =>
    refine exRel_of fun o ho => ?_
    rcases mark_handled h plain ho with rfl | rfl
    · trivial
    · exact hR
  | other h =>
    refine exRel_of fun o ho => ?_
    obtain ⟨⟨a, ha⟩, ⟨b, hb⟩, hc⟩ := noNumber_floats h
    have : o = none ∨ o = some .nan := by
      unfold handleValue handleContinuous handleNonContinuous at ho
      rw [ha, hb, hc] at ho
      repeat' split at ho
      all_goals first
        | (cases ho; done)
        | (cases ho; exact .inl rfl)
        | (cases ho; exact .inr rfl)
        | (exfalso; simp_all; done)
    rcases this with rfl | rfl
    · trivial
    · exact hR
  | numbers hv hw h mv mw =>
    obtain ⟨a1, a2, a3, a4⟩ := holdsNumber_shape ext hv
    obtain ⟨b1, b2, b3, b4⟩ := holdsNumber_shape ext hw
    unfold handleValue handleContinuous handleNonContinuous
    have c1 : ¬ (sp.blankRows = true ∧ v = .none) := fun h => a2 h.2
    have c2 : ¬ (sp.blankRows = true ∧ w = .none) := fun h => b2 h.2
    rw [if_neg c1, if_neg c2]
    try rw [a3]
    try rw [a4]
    try rw [b3]
    try rw [b4]
    unfold validFloat
    rw [a1, b1]
    dsimp only
    by_cases hm : sp.missings = true
    · rw [if_pos hm, if_pos hm, number_notMark hv mv hm, number_notMark hw mw hm]
      unfold numberIn
      split
      · split
        · exact .inl ⟨_, rfl, rfl⟩
        · exact .inr ⟨_, _, rfl, rfl, hR⟩
        · exact .inr ⟨_, _, rfl, rfl, h⟩
      · split
        · exact .inl ⟨_, rfl, rfl⟩
        · exact .inr ⟨_, _, rfl, rfl, hR⟩
        · exact .inr ⟨_, _, rfl, rfl, h⟩
    · rw [if_neg hm, if_neg hm]
      split
      · exact .inr ⟨_, _, rfl, rfl, h⟩
      · exact .inr ⟨_, _, rfl, rfl, h⟩

/-! ### All values of a series -/

/-- Adding the two names to related columns gives related columns. -/
def NamesFit (K : List Str → List Str → Prop) (a b : Str) : Prop := ∀ c d, K c d → K (addName a c) (addName b d)

/-- What the extraction needs of two cells in a column of dates once it was cleaned. -/
structure DateCell (ext : Ext) (c d : Cell) : Prop where
  isDt : d.isDt = c.isDt
  truthy : d.truthy = c.truthy
  arrow : arrowGet ext d = arrowGet ext c
  stamp : toTimestamp ext d = toTimestamp ext c

theorem DateCell.refl {ext : Ext} (c : Cell) : DateCell ext c c := ⟨rfl, rfl, rfl, rfl⟩

theorem DateCell.of_eq {ext : Ext} {c d : Cell} (h : d = c) : DateCell ext c d := h ▸ .refl _

/-- What the extraction needs of two worksheets; `R` relates their numbers, `K` the columns of the data frames. -/
structure Pair (ext : Ext) (R : Num → Num → Prop) (K : List Str → List Str → Prop) (sps : List SParams)
    (s t : Sheet) : Prop where
  rows : t.maxRow = s.maxRow
  cols : t.maxCol = s.maxCol
  dates : ∀ sp ∈ sps, ∀ r c, InDates sp r c → DateCell ext (s.cells r c) (t.cells r c)
  names : ∀ sp ∈ sps, ExRel (NamesFit K) (getName ext sp s) (getName ext sp t)
  values : ∀ sp ∈ sps, ∀ r c, InValues sp r c →
    ExRel (OptRel R) (handleValue ext sp (s.cells r c)) (handleValue ext sp (t.cells r c))

theorem cellAt_cells {s t : Sheet} (a : Str) (h : ∀ r c, coordOf a = .ok (r, c) → t.cells r c = s.cells r c) :
    cellAt t a = cellAt s a := by
  unfold cellAt
  cases ha : coordOf a with
  | error e => rfl
  | ok rc => dsimp only; rw [h rc.1 rc.2 ha]

theorem composedParts_cells {ext : Ext} {s t : Sheet} : ∀ (cs : List Str),
    (∀ a ∈ cs, ∀ r c, coordOf a = .ok (r, c) → t.cells r c = s.cells r c) →
    composedParts ext t cs = composedParts ext s cs
  | [], _ => rfl
  | a :: cs, hc => by
    unfold composedParts
    rw [cellAt_cells a (hc a (by simp)), composedParts_cells cs fun b hb => hc b (by simp [hb])]

/-- The name depends on the cells of the headers. -/
theorem getName_cells {ext : Ext} {s t : Sheet} (sp : SParams)
    (h : ∀ a ∈ sp.headerCoord :: sp.composedHeaders.getD [], ∀ r c, coordOf a = .ok (r, c) →
      t.cells r c = s.cells r c) : getName ext sp t = getName ext sp s := by
  unfold getName
  rw [cellAt_cells _ (h _ (by simp)), composedParts_cells _ fun a ha => h a (by simp [ha])]

section
variable {ext : Ext} {R : Num → Num → Prop} {K : List Str → List Str → Prop} {sps : List SParams} {s t : Sheet}

theorem Pair.touch (h : Pair ext R K sps s t) (r c : Int) : Pair ext R K sps (s.touch r c) (t.touch r c) :=
  ⟨by show max _ _ = max _ _; rw [h.rows], by show max _ _ = max _ _; rw [h.cols], h.dates,
    fun sp hsp => by
      rw [getName_cells (s := s) (t := s.touch r c) sp fun _ _ _ _ _ => rfl,
        getName_cells (s := t) (t := t.touch r c) sp fun _ _ _ _ _ => rfl]
      exact h.names sp hsp, h.values⟩

theorem Pair.touchAll : ∀ (l : List (Int × Int)) {s t : Sheet}, Pair ext R K sps s t →
    Pair ext R K sps (s.touchAll l) (t.touchAll l)
  | [], _, _, h => h
  | rc :: l, _, _, h => Pair.touchAll l (h.touch rc.1 rc.2)

theorem Pair.date (h : Pair ext R K sps s t) {sp : SParams} (hsp : sp ∈ sps) {a : Str}
    (ha : a ∈ timeCoords sp.timeHeader) {hr hc : Int} (hh : coordOf a = .ok (hr, hc)) (pos : Int) :
    DateCell ext (s.cells (axisCell sp.alignment hr hc pos).1 (axisCell sp.alignment hr hc pos).2)
      (t.cells (axisCell sp.alignment hr hc pos).1 (axisCell sp.alignment hr hc pos).2) :=
  h.dates sp hsp _ _ ⟨a, ha, hr, hc, pos, hh, isAt_iff.2 rfl⟩

/-- The values found so far, by frequency. -/
def DealtRel (R : Num → Num → Prop) : List (Str × List Num) → List (Str × List Num) → Prop :=
  List.Forall₂ fun a b => b.1 = a.1 ∧ List.Forall₂ R a.2 b.2

theorem dealTo_rel {x y : Num} (hxy : R x y) (k : Str) {m m' : List (Str × List Num)} (h : DealtRel R m m') :
    DealtRel R (dealTo m k x) (dealTo m' k y) := by
  induction h with
  | nil => exact .cons ⟨rfl, .cons hxy .nil⟩ .nil
  | @cons a b m m' hab hm ih =>
    obtain ⟨k1, xs⟩ := a
    obtain ⟨k2, ys⟩ := b
    obtain ⟨h1, h2⟩ := hab
    dsimp only at h1 h2
    subst h1
    unfold dealTo
    split
    · exact .cons ⟨rfl, List.rel_append h2 (.cons hxy .nil)⟩ hm
    · exact .cons ⟨rfl, h2⟩ ih

theorem nonContHeader_date {sp : SParams} {hr hc : Int} (h : nonContHeader sp = .ok (hr, hc)) :
    ∃ a ∈ timeCoords sp.timeHeader, coordOf a = .ok (hr, hc) := by
  unfold nonContHeader at h
  split at h
  · cases h
  next c cs _ hth => exact ⟨c, by rw [hth]; simp [timeCoords], h⟩
  · cases h
  next c _ hth => exact ⟨c, by rw [hth]; simp [timeCoords], h⟩
  · cases h

theorem timeHeaderCell_date {sp : SParams} {hr hc : Int} (h : timeHeaderCell sp.timeHeader = .ok (hr, hc)) :
    ∃ a ∈ timeCoords sp.timeHeader, coordOf a = .ok (hr, hc) := by
  unfold timeHeaderCell at h
  split at h
  next c hth => exact ⟨c, by rw [hth]; simp [timeCoords], h⟩
  · cases h
  next c cs hth => exact ⟨c, by rw [hth]; simp [timeCoords], h⟩

theorem toBeAdded_rel (h : Pair ext R K sps s t) {sp sq : SParams} {e : Option Int} (hsp : sp ∈ sps)
    (hq : sq = { sp with dataEnds := e }) {v w : Option Num} (hvw : OptRel R v w) (i : Int) :
    toBeAdded sq t w i = toBeAdded sq s v i := by
  have hs : w.isSome = v.isSome := by
    cases v <;> cases w <;> first | rfl | cases hvw
  unfold toBeAdded
  rw [hs]
  split
  · rfl
  · cases hn : nonContHeader sq with
    | error e => rfl
    | ok rc =>
      obtain ⟨hr, hc⟩ := rc
      dsimp only
      obtain ⟨a, ha, hh⟩ := nonContHeader_date hn
      subst hq
      unfold Sheet.read
      by_cases hb : 1 ≤ (axisCell sp.alignment hr hc (i + sp.timeAlignment)).1 ∧
          1 ≤ (axisCell sp.alignment hr hc (i + sp.timeAlignment)).2
      · rw [if_pos hb, if_pos hb]
        dsimp only
        rw [(h.date hsp ha hh (i + sp.timeAlignment)).isDt]
      · rw [if_neg hb, if_neg hb]

theorem valuesLoop_rel (hR : R .nan .nan) (h : Pair ext R K sps s t) {sp sq : SParams} {e : Option Int} (hsp : sp ∈ sps)
    (hq : sq = { sp with dataEnds := e }) {hr hc : Int} (hh : coordOf sp.headerCoord = .ok (hr, hc)) :
    ∀ (is : List Int) {m m' : List (Str × List Num)} (last : Str), (∀ i ∈ is, sp.dataStarts ≤ i) → DealtRel R m m' →
    ExRel (DealtRel R) (valuesLoop ext sq s hr hc is m last) (valuesLoop ext sq t hr hc is m' last)
  | [], _, _, _, _, hm => .inr ⟨_, _, rfl, rfl, hm⟩
  | i :: is, m, m', last, hi, hm => by
    have ih := fun {m m'} last hm => valuesLoop_rel hR h hsp hq hh is (m := m) (m' := m') last
      (fun j hj => hi j (by simp [hj])) hm
    have hal : sq.alignment = sp.alignment := by rw [hq]
    have hval : ∀ v, handleValue ext sq v = handleValue ext sp v := by rw [hq]; exact fun _ => rfl
    have hv := h.values sp hsp (axisCell sp.alignment hr hc i).1 (axisCell sp.alignment hr hc i).2
      ⟨hr, hc, i, hh, hi i (by simp), isAt_iff.2 rfl⟩
    unfold valuesLoop
    dsimp only
    rw [hal]
    unfold Sheet.read
    by_cases hb : 1 ≤ (axisCell sp.alignment hr hc i).1 ∧ 1 ≤ (axisCell sp.alignment hr hc i).2
    · rw [if_pos hb, if_pos hb]
      dsimp only
      rw [hval, hval]
      rcases hv with ⟨e, k1, k2⟩ | ⟨v, w, k1, k2, hvw⟩
      · rw [k1, k2]
        exact .inl ⟨_, rfl, rfl⟩
      · rw [k1, k2]
        dsimp only
        rw [toBeAdded_rel h hsp hq hvw]
        cases toBeAdded sq s v i with
        | error e => exact .inl ⟨_, rfl, rfl⟩
        | ok add =>
          cases add with
          | false => exact ih last hm
          | true =>
            cases v with
            | none =>
              cases w with
              | none => exact ih last hm
              | some y => cases hvw
            | some x =>
              cases w with
              | none => cases hvw
              | some y =>
                dsimp only
                cases getFrequency sq.frequency last with
                | error e => exact .inl ⟨_, rfl, rfl⟩
                | ok f => exact ih f.2 (dealTo_rel hvw f.1 hm)
    · rw [if_neg hb, if_neg hb]
      exact .inl ⟨_, rfl, rfl⟩

theorem replicate_rel (hR : R .nan .nan) : ∀ n : Nat, List.Forall₂ R (List.replicate n .nan) (List.replicate n .nan)
  | 0 => .nil
  | n + 1 => .cons hR (replicate_rel hR n)

theorem fillOne_rel {c d : Cell} (h : DateCell ext c d) (freq : Str) (exp : Option Time) :
    fillOne ext freq d exp = fillOne ext freq c exp := by
  unfold fillOne
  rw [h.arrow]

theorem fillValues_rel (hR : R .nan .nan) (freq : Str) : ∀ {cs ds : List Cell} {xs ys : List Num} (exp : Option Time),
    List.Forall₂ (DateCell ext) cs ds → List.Forall₂ R xs ys →
    ExRel (List.Forall₂ R) (fillValues ext freq (cs.zip xs) exp) (fillValues ext freq (ds.zip ys) exp)
  | _, _, _, _, _, .nil, _ => .inr ⟨_, _, rfl, rfl, .nil⟩
  | c :: cs, d :: ds, _, _, exp, .cons hcd hcs, h => by
    cases h with
    | nil => exact .inr ⟨_, _, rfl, rfl, .nil⟩
    | @cons x y xs ys hxy h =>
      rw [List.zip_cons_cons, List.zip_cons_cons]
      unfold fillValues
      rw [fillOne_rel hcd]
      cases fillOne ext freq c exp with
      | error e => exact .inl ⟨_, rfl, rfl⟩
      | ok nt =>
        obtain ⟨n, t⟩ := nt
        dsimp only
        rcases fillValues_rel hR freq (some t) hcs h with ⟨e, k1, k2⟩ | ⟨us, vs, k1, k2, huv⟩
        · rw [k1, k2]
          exact .inl ⟨_, rfl, rfl⟩
        · rw [k1, k2]
          exact .inr ⟨_, _, rfl, rfl, List.rel_append (replicate_rel hR n) (.cons hxy huv)⟩

theorem mem_intRange_le {a b i : Int} (h : i ∈ intRange a b) : a ≤ i := by
  unfold intRange at h
  obtain ⟨n, -, rfl⟩ := List.mem_map.1 h
  omega

theorem timeCells_rel (h : Pair ext R K sps s t) {sp sq : SParams} {e : Option Int} (hsp : sp ∈ sps)
    (hq : sq = { sp with dataEnds := e }) {tr tc : Int} (hth : timeHeaderCell sq.timeHeader = .ok (tr, tc))
    (is : List Int) : List.Forall₂ (DateCell ext) (timeCells sq s tr tc is) (timeCells sq t tr tc is) := by
  obtain ⟨a, ha, hh⟩ := timeHeaderCell_date hth
  subst hq
  unfold timeCells
  rw [List.forall₂_map_left_iff, List.forall₂_map_right_iff]
  exact List.forall₂_same.2 fun i _ => h.date hsp ha hh i

theorem getValues_rel (hR : R .nan .nan) (h : Pair ext R K sps s t) {sp sq : SParams} {e : Option Int} (hsp : sp ∈ sps)
    (hq : sq = { sp with dataEnds := e }) :
    ExRel (List.Forall₂ (List.Forall₂ R)) (getValues ext sq s) (getValues ext sq t) := by
  unfold getValues
  split
  · exact .inl ⟨_, rfl, rfl⟩
  · cases hh : coordOf sq.headerCoord with
    | error e => exact .inl ⟨_, rfl, rfl⟩
    | ok rc =>
      obtain ⟨hr, hc⟩ := rc
      dsimp only
      cases he : sq.dataEnds with
      | none => exact .inl ⟨_, rfl, rfl⟩
      | some stop =>
        dsimp only
        have hst : sq.dataStarts = sp.dataStarts := by rw [hq]
        have hhd : coordOf sp.headerCoord = .ok (hr, hc) := by rw [← hh, hq]
        have hsnd : ∀ {m m' : List (Str × List Num)}, DealtRel R m m' →
            List.Forall₂ (List.Forall₂ R) (m.map Prod.snd) (m'.map Prod.snd) := by
          intro m m' hm
          rw [List.forall₂_map_left_iff, List.forall₂_map_right_iff]
          exact hm.imp fun a b hab => hab.2
        rcases valuesLoop_rel hR h hsp hq hhd (intRange sq.dataStarts (stop + 1)) []
          (fun i hi => by rw [hst] at hi; exact mem_intRange_le hi) .nil with ⟨e, k1, k2⟩ | ⟨m, m', k1, k2, hm⟩
        · rw [k1, k2]
          exact .inl ⟨_, rfl, rfl⟩
        · rw [k1, k2]
          dsimp only
          split
          · cases cellIn (.str c!"Implicit") sq.missingValue with
            | error e => exact .inl ⟨_, rfl, rfl⟩
            | ok implicit =>
              dsimp only
              split
              · cases hm with
                | nil => exact .inl ⟨_, rfl, rfl⟩
                | @cons a b m m' hab hm =>
                  obtain ⟨ka, xs⟩ := a
                  obtain ⟨kb, ys⟩ := b
                  dsimp only
                  cases hth : timeHeaderCell sq.timeHeader with
                  | error e => exact .inl ⟨_, rfl, rfl⟩
                  | ok trc =>
                    obtain ⟨tr, tc⟩ := trc
                    dsimp only
                    rcases fillValues_rel (ext := ext) hR sq.frequency none
                      (timeCells_rel h hsp hq hth (intRange sq.dataStarts (stop + 1))) hab.2 with
                      ⟨e, k1, k2⟩ | ⟨us, vs, k1, k2, huv⟩
                    · rw [k1, k2]
                      exact .inl ⟨_, rfl, rfl⟩
                    · rw [k1, k2]
                      exact .inr ⟨_, _, rfl, rfl, .cons huv .nil⟩
              · exact .inr ⟨_, _, rfl, rfl, hsnd hm⟩
          · exact .inr ⟨_, _, rfl, rfl, hsnd hm⟩

/-- What a series gives: names that fit, and numbers in the relation. -/
def NamedRel (R : Num → Num → Prop) (K : List Str → List Str → Prop) :
    List (Str × List Num) → List (Str × List Num) → Prop :=
  List.Forall₂ fun a b => NamesFit K a.1 b.1 ∧ List.Forall₂ R a.2 b.2

theorem getSeries_rel (hR : R .nan .nan) (h : Pair ext R K sps s t) {sp : SParams} (hsp : sp ∈ sps) :
    ExRel (NamedRel R K) (getSeries ext sp s) (getSeries ext sp t) := by
  unfold getSeries
  rcases h.names sp hsp with ⟨e, k1, k2⟩ | ⟨a, b, k1, k2, hab⟩
  · rw [k1, k2]
    exact .inl ⟨_, rfl, rfl⟩
  · rw [k1, k2]
    dsimp only
    rcases getValues_rel hR h hsp (e := sp.dataEnds) rfl with ⟨e, k1, k2⟩ | ⟨us, vs, k1, k2, huv⟩
    · rw [k1, k2]
      exact .inl ⟨_, rfl, rfl⟩
    · rw [k1, k2]
      refine .inr ⟨_, _, rfl, rfl, ?_⟩
      unfold NamedRel
      rw [List.forall₂_map_left_iff, List.forall₂_map_right_iff]
      exact huv.imp fun _ _ hv => ⟨hab, hv⟩

theorem forall₂_length {α β : Type} {Q : α → β → Prop} {l : List α} {l' : List β} (h : List.Forall₂ Q l l') :
    l'.length = l.length := h.length_eq.symm

theorem seriesReads_rel (hR : R .nan .nan) (h : Pair ext R K sps s t) {sp sq : SParams} {e : Option Int} (hsp : sp ∈ sps)
    (hq : sq = { sp with dataEnds := e }) : seriesReads ext sq t = seriesReads ext sq s := by
  have hst : sq.dataStarts = sp.dataStarts := by rw [hq]
  unfold seriesReads
  dsimp only
  cases hh : coordOf sq.headerCoord with
  | error e => rfl
  | ok rc =>
    obtain ⟨hr, hc⟩ := rc
    dsimp only
    have hhd : coordOf sp.headerCoord = .ok (hr, hc) := by rw [← hh, hq]
    rcases valuesLoop_rel hR h hsp hq hhd (intRange sq.dataStarts (sq.dataEnds.getD 0 + 1)) []
      (fun i hi => by rw [hst] at hi; exact mem_intRange_le hi) .nil with ⟨e, k1, k2⟩ | ⟨m, m', k1, k2, hm⟩
    · rw [k1, k2]
    · rw [k1, k2]
      cases hm with
      | nil => rfl
      | cons hab _ => dsimp only; rw [hab.2.length_eq]

end

end Xls
