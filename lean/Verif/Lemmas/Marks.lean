/-
Empty rows below the values.
-/
import Verif.Lemmas.Again
import Verif.Lemmas.MixedData
import Verif.Lemmas.Turned
import Verif.Spec.Marks

set_option autoImplicit false

namespace Xls

open Spec

/-- Nothing is below row `n`. -/
def BlankBelow (n : Int) (s : Sheet) : Prop := ∀ r c : Int, n < r → s.cells r c = .none

/-! ### One value of the time index -/

theorem multiParts_down (ext : Ext) {p q : Int} (hq : 1 ≤ q) : ∀ (cs : List Str) {s t : Sheet} {ps : List Str},
    (∀ c, t.cells q c = .none) → (multiParts ext .vertical p s cs).1 = .ok ps →
    (multiParts ext .vertical q t cs).1 = .ok []
  | [], s, t, ps, _, _ => rfl
  | coord :: cs, s, t, ps, hn, h => by
    unfold multiParts at h ⊢
    split at h
    · cases h
    · next hr hc hcoord =>
      dsimp only at h ⊢
      split at h
      · next hin =>
        have hin' : 1 ≤ (axisCell .vertical hr hc q).1 ∧ 1 ≤ (axisCell .vertical hr hc q).2 := ⟨hq, hin.2⟩
        rw [if_pos hin']
        have hv : t.cells (axisCell .vertical hr hc q).1 (axisCell .vertical hr hc q).2 = .none := hn _
        rw [hv, if_neg (by decide)]
        split at h
        · cases h
        · obtain ⟨res, hres⟩ : ∃ r, multiParts ext .vertical p ((s.touch hr hc).touch
            (axisCell .vertical hr hc p).1 (axisCell .vertical hr hc p).2) cs = r := ⟨_, rfl⟩
          rw [hres] at h
          obtain ⟨x, u⟩ := res
          cases x with
          | error e => cases h
          | ok ps' =>
            have ih := multiParts_down ext hq cs
              (t := (t.touch hr hc).touch (axisCell .vertical hr hc q).1 (axisCell .vertical hr hc q).2)
              (ps := ps') (by intro c; exact hn c) (congrArg Prod.fst hres)
            obtain ⟨res', hres'⟩ : ∃ r, multiParts ext .vertical q ((t.touch hr hc).touch
              (axisCell .vertical hr hc q).1 (axisCell .vertical hr hc q).2) cs = r := ⟨_, rfl⟩
            rw [hres'] at ih ⊢
            obtain ⟨x', u'⟩ := res'
            dsimp only at ih
            subst ih
            rfl
      · cases h

/-- If some value of the time index can be read, then in an empty row there is none. -/
theorem getTimeValue_down (ext : Ext) {sp : SParams} (hv : sp.alignment = .vertical) {p q : Int} (hq : 1 ≤ q)
    {s t : Sheet} (hn : ∀ c, t.cells q c = .none) {v : Cell} (h : (getTimeValue ext sp p s).1 = .ok v) :
    (getTimeValue ext sp q t).1 = .ok .none := by
  unfold getTimeValue at h ⊢
  split at h
  · cases h
  · cases h
  · next coord hm hth =>
    split at h
    · cases h
    · next hr hc hcoord =>
      dsimp only at h ⊢
      rw [hv] at h ⊢
      split at h
      · next hin =>
        have hin' : 1 ≤ (axisCell .vertical hr hc q).1 ∧ 1 ≤ (axisCell .vertical hr hc q).2 := ⟨hq, hin.2⟩
        rw [if_pos hin']
        exact congrArg Except.ok (hn _)
      · cases h
  · next coords hm hth =>
    rw [hv] at h ⊢
    obtain ⟨res, hres⟩ : ∃ r, multiParts ext .vertical p s coords = r := ⟨_, rfl⟩
    rw [hres] at h
    obtain ⟨x, u⟩ := res
    cases x with
    | error e => cases h
    | ok ps =>
      have hd := multiParts_down ext hq coords hn (congrArg Prod.fst hres)
      obtain ⟨res', hres'⟩ : ∃ r, multiParts ext .vertical q t coords = r := ⟨_, rfl⟩
      rw [hres'] at hd ⊢
      obtain ⟨x', u'⟩ := res'
      dsimp only at hd
      subst hd
      rfl

/-- A step in an empty row, after some value could be read. -/
theorem cleanStep_down (ext : Ext) {sp : SParams} (hv : sp.alignment = .vertical) {n p q : Int} (hn : 1 ≤ n)
    (hq : n < q) {s t : Sheet} (hb : BlankBelow n t) {v : Cell} (h : (getTimeValue ext sp p s).1 = .ok v)
    {hr hc : Int} (hh : timeHeaderCell sp.timeHeader = .ok (hr, hc)) (st : CState) :
    ∃ t', t'.cells = t.cells ∧
      (cleanStep ext sp st t q = (.stop, t') ∨ ∃ st', cleanStep ext sp st t q = (.next st', t')) := by
  have g1 := getTimeValue_down ext hv (q := q) (by omega) (fun c => hb q c hq) h
  have c1 := getTimeValue_cells ext sp q t
  unfold cleanStep
  obtain ⟨res, hres⟩ : ∃ r, getTimeValue ext sp q t = r := ⟨_, rfl⟩
  rw [hres] at g1 c1 ⊢
  obtain ⟨x, u⟩ := res
  dsimp only at g1 c1
  subst g1
  dsimp only
  have g2 := getTimeValue_down ext hv (q := q + 1) (t := u) (by omega)
    (fun c => by rw [c1]; exact hb _ c (by omega)) h
  have c2 := getTimeValue_cells ext sp (q + 1) u
  obtain ⟨res, hres⟩ : ∃ r, getTimeValue ext sp (q + 1) u = r := ⟨_, rfl⟩
  rw [hres] at g2 c2 ⊢
  obtain ⟨x, w⟩ := res
  dsimp only at g2 c2
  subst g2
  rw [hh]
  dsimp only
  unfold cleanValue
  rw [if_neg (by simp [mustBeTimeValue])]
  refine ⟨w.touch (axisCell sp.alignment hr hc q).1 (axisCell sp.alignment hr hc q).2, ?_, ?_⟩
  · rw [← c1, ← c2]; rfl
  · split
    · exact .inr ⟨_, rfl⟩
    · exact .inl rfl

/-- The loop over empty rows. -/
theorem cleanLoop_down (ext : Ext) {sp : SParams} (hv : sp.alignment = .vertical) {n p : Int} (hn : 1 ≤ n)
    {s : Sheet} {v : Cell} (h : (getTimeValue ext sp p s).1 = .ok v)
    {hr hc : Int} (hh : timeHeaderCell sp.timeHeader = .ok (hr, hc)) :
    ∀ (qs : List Int), (∀ q ∈ qs, n < q) → ∀ {t : Sheet}, BlankBelow n t → ∀ (st : CState) {x : Int}, n ≤ x →
    ∃ y t', cleanLoop ext sp st t (some x) qs = (.ok (some y), t') ∧ n ≤ y ∧ t'.cells = t.cells
  | [], _, t, _, _, x, hx => ⟨x, t, rfl, hx, rfl⟩
  | q :: qs, hqs, t, hb, st, x, hx => by
    have hq := hqs q (by simp)
    obtain ⟨t', hc', hstep⟩ := cleanStep_down ext hv hn hq hb h hh st
    unfold cleanLoop
    rcases hstep with hs | ⟨st', hs⟩
    · rw [hs]
      exact ⟨q, t', rfl, by omega, hc'⟩
    · rw [hs]
      dsimp only
      obtain ⟨y, t2, k1, k2, k3⟩ := cleanLoop_down ext hv hn h hh qs (fun a ha => hqs a (by simp [ha]))
        (t := t') (by intro r c hr; rw [hc']; exact hb r c hr) st' (x := q) (by omega)
      exact ⟨y, t2, k1, k2, by rw [k3, hc']⟩

/-! ### The loop on worksheets with the same cells -/

theorem cleanLoop_cells (ext : Ext) (sp : SParams) : ∀ (ps : List Int) (st : CState) (r : Option Int) {s t : Sheet},
    t.cells = s.cells → (cleanLoop ext sp st t r ps).1 = (cleanLoop ext sp st s r ps).1 ∧
      (cleanLoop ext sp st t r ps).2.cells = (cleanLoop ext sp st s r ps).2.cells
  | [], _, _, _, _, h => ⟨rfl, h⟩
  | p :: ps, st, r, s, t, h => by
    unfold cleanLoop
    obtain ⟨res, hres⟩ : ∃ x, cleanStep ext sp st s p = x := ⟨_, rfl⟩
    obtain ⟨x, u⟩ := res
    obtain ⟨u', hu, hc⟩ := cleanStep_cells h hres
    rw [hres, hu]
    cases x with
    | next st' => exact cleanLoop_cells ext sp ps st' (some p) hc
    | stop => exact ⟨rfl, hc⟩
    | raise e => exact ⟨rfl, hc⟩

/-- What a step that goes on tells about the header. -/
theorem cleanStep_readable {ext : Ext} {sp : SParams} {st st' : CState} {s s' : Sheet} {p : Int}
    (h : cleanStep ext sp st s p = (.next st', s')) :
    (∃ v, (getTimeValue ext sp p s).1 = .ok v) ∧ ∃ hr hc, timeHeaderCell sp.timeHeader = .ok (hr, hc) := by
  obtain ⟨hr, hc, curr, next, s0, hh, -, hcur, -, -⟩ := cleanStep_next h
  exact ⟨⟨_, hcur⟩, hr, hc, hh⟩

theorem cleanLoop_append (ext : Ext) (sp : SParams) : ∀ (ps qs : List Int) (st : CState) (s : Sheet) (r : Option Int),
    ps ≠ [] →
    cleanLoop ext sp st s r (ps ++ qs) = cleanLoop ext sp st s r ps ∨
    ∃ st' s' x, ps.getLast? = some x ∧
      ((∃ y u v, (getTimeValue ext sp y u).1 = .ok v) ∧ ∃ hr hc, timeHeaderCell sp.timeHeader = .ok (hr, hc)) ∧
      cleanLoop ext sp st s r ps = (.ok (some x), s') ∧
      cleanLoop ext sp st s r (ps ++ qs) = cleanLoop ext sp st' s' (some x) qs
  | [], _, _, _, _, h => absurd rfl h
  | p :: ps, qs, st, s, r, _ => by
    rw [List.cons_append]
    have hl : ∀ l, cleanLoop ext sp st s r (p :: l) = match cleanStep ext sp st s p with
      | (.raise e, s) => (.error e, s)
      | (.stop, s) => (.ok (some p), s)
      | (.next st, s) => cleanLoop ext sp st s (some p) l := fun _ => rfl
    rw [hl, hl]
    obtain ⟨res, hres⟩ : ∃ x, cleanStep ext sp st s p = x := ⟨_, rfl⟩
    rw [hres]
    obtain ⟨x, u⟩ := res
    cases x with
    | stop => exact .inl rfl
    | raise e => exact .inl rfl
    | next st' =>
      dsimp only
      cases ps with
      | nil =>
        obtain ⟨⟨v, hv⟩, hh⟩ := cleanStep_readable hres
        exact .inr ⟨st', u, p, rfl, ⟨⟨_, _, _, hv⟩, hh⟩, rfl, rfl⟩
      | cons a ps =>
        have ih := cleanLoop_append ext sp (a :: ps) qs st' u (some p) (by simp)
        rcases ih with ih | ⟨st2, s2, x, h1, h2, h3, h4⟩
        · exact .inl ih
        · exact .inr ⟨st2, s2, x, by rw [List.getLast?_cons_cons]; exact h1, h2, h3, h4⟩

/-! ### The end that is found -/

theorem lastDtUp_down {s : Sheet} {n : Int} (hb : BlankBelow n s) (col ds : Int) (hn : ds ≤ n) :
    ∀ (k : Nat), lastDtUp s col (n + k - ds).toNat (n + k) = lastDtUp s col (n - ds).toNat n
  | 0 => by simp
  | k + 1 => by
    have e : (n + ((k + 1 : Nat) : Int) - ds).toNat = (n + k - ds).toNat + 1 := by omega
    rw [e]
    conv => lhs; unfold lastDtUp
    rw [hb (n + ((k + 1 : Nat) : Int)) col (by omega), if_neg (by decide),
      show n + ((k + 1 : Nat) : Int) - 1 = n + k by omega]
    exact lastDtUp_down hb col ds hn k

theorem estimateEnd_down {sp : SParams} (hv : sp.alignment = .vertical) {s t : Sheet} {n : Int}
    (hb : BlankBelow n s) (hc : t.cells = s.cells) (hn : sp.dataStarts ≤ n) (hr hcol : Int) {y : Int} (hy : n ≤ y) :
    estimateEnd sp t hr hcol y = estimateEnd sp s hr hcol n := by
  unfold estimateEnd
  rw [hv]
  dsimp only
  obtain ⟨k, rfl⟩ : ∃ k : Nat, y = n + k := ⟨(y - n).toNat, by omega⟩
  have hbt : BlankBelow n t := by intro r c h; rw [hc]; exact hb r c h
  rw [lastDtUp_down hbt hcol sp.dataStarts hn k]
  have : ∀ (j : Nat) (r : Int), lastDtUp t hcol j r = lastDtUp s hcol j r := by
    intro j
    induction j with
    | zero => intro r; rfl
    | succ j ih => intro r; unfold lastDtUp; rw [hc, ih]
  rw [this]

theorem estimateEnd_cells (sp : SParams) {s t : Sheet} (hc : t.cells = s.cells) (hr hcol y : Int) :
    estimateEnd sp t hr hcol y = estimateEnd sp s hr hcol y := by
  have : ∀ (j : Nat) (r : Int), lastDtUp t hcol j r = lastDtUp s hcol j r := by
    intro j
    induction j with
    | zero => intro r; rfl
    | succ j ih => intro r; unfold lastDtUp; rw [hc, ih]
  unfold estimateEnd
  rw [hc]
  simp only [this]

/-! ### The whole time index -/

/-- `cleanWith` up to a given position. -/
def cleanUpTo (ext : Ext) (sp : SParams) (s : Sheet) (m : Int) : Except Err Int × Sheet :=
  match cleanLoop ext sp .init s none (intRange sp.dataStarts (m + 1)) with
  | (.error e, s) => (.error e, s)
  | (.ok none, s) => (.error .nameError, s)
  | (.ok (some pos), s) =>
    match timeHeaderCell sp.timeHeader with
    | .error e => (.error e, s)
    | .ok (hr, hc) => (estimateEnd sp s hr hc pos, s)

theorem cleanUpTo_cells (ext : Ext) (sp : SParams) {s t : Sheet} (h : t.cells = s.cells) (m : Int) :
    (cleanUpTo ext sp t m).1 = (cleanUpTo ext sp s m).1 ∧
      (cleanUpTo ext sp t m).2.cells = (cleanUpTo ext sp s m).2.cells := by
  have hl := cleanLoop_cells ext sp (intRange sp.dataStarts (m + 1)) .init none h
  unfold cleanUpTo
  obtain ⟨res, hres⟩ : ∃ r, cleanLoop ext sp .init s none (intRange sp.dataStarts (m + 1)) = r := ⟨_, rfl⟩
  obtain ⟨res', hres'⟩ : ∃ r, cleanLoop ext sp .init t none (intRange sp.dataStarts (m + 1)) = r := ⟨_, rfl⟩
  rw [hres, hres'] at hl
  rw [hres, hres']
  obtain ⟨x, u⟩ := res
  obtain ⟨x', u'⟩ := res'
  obtain ⟨h1, h2⟩ := hl
  dsimp only at h1 h2
  subst h1
  match x' with
  | .error e => exact ⟨rfl, h2⟩
  | .ok none => exact ⟨rfl, h2⟩
  | .ok (some pos) =>
    dsimp only
    split
    · exact ⟨rfl, h2⟩
    · exact ⟨estimateEnd_cells sp h2 _ _ _, h2⟩

theorem intRange_split {a b c : Int} (h1 : a ≤ b) (h2 : b ≤ c) : intRange a c = intRange a b ++ intRange b c := by
  unfold intRange
  obtain ⟨k, hk⟩ : ∃ k : Nat, b = a + k := ⟨(b - a).toNat, by omega⟩
  obtain ⟨m, hm⟩ : ∃ m : Nat, c = b + m := ⟨(c - b).toNat, by omega⟩
  subst hk
  subst hm
  rw [show (a + k + m - a).toNat = k + m by omega, show (a + k - a).toNat = k by omega,
    show (a + k + m - (a + k)).toNat = m by omega, List.range_add, List.map_append, List.map_map]
  congr 1
  refine List.map_congr_left fun i _ => ?_
  simp only [Function.comp_apply]
  omega

/-- Cleaning keeps what is below empty. -/
theorem steps_blank {ext : Ext} {sp : SParams} (hv : sp.alignment = .vertical) {n : Int} (hn : 1 ≤ n)
    {st st' : CState} {s s' : Sheet} {p q : Int} (h : Steps ext sp st s p st' s' q) (hb : BlankBelow n s) :
    BlankBelow n s' := by
  induction h with
  | refl => exact hb
  | @tail st1 s1 q st2 s2 h hs ih =>
    obtain ⟨⟨v, hval⟩, hr, hc, hh⟩ := cleanStep_readable hs
    rcases Int.lt_or_le n q with hq | hq
    · obtain ⟨t', hcells, hstep⟩ := cleanStep_down ext hv hn hq ih hval hh st1
      rcases hstep with h1 | ⟨_, h1⟩
      · rw [hs] at h1; cases h1
      · rw [hs] at h1
        injection h1 with _ h1
        subst h1
        intro r c hr'
        rw [hcells]
        exact ih r c hr'
    · obtain ⟨hr, hc, curr, next, s0, hh, hcell, hcur, hnext, hn'⟩ := cleanStep_next hs
      have hrow : ∀ r : Int, n < r → ¬ (r = rowOf sp.alignment hr q) := by
        intro r hr' he
        unfold rowOf at he
        rw [hv] at he
        simp at he
        omega
      intro r c hr'
      cases hn' with
      | write t0 t pr st1' must parsed corr fresh hst hs' =>
        subst hs'
        rw [set_cells, if_neg (fun hx => hrow r hr' hx.1), hcell]
        exact ih r c hr'
      | blanked pr e must parsed out hst hs' =>
        subst hs'
        rw [set_cells, if_neg (fun hx => hrow r hr' hx.1), hcell]
        exact ih r c hr'
      | skipped must few may hst hs' =>
        subst hs'
        rw [hcell]
        exact ih r c hr'

theorem cleanTimeIndex_blank (ext : Ext) {sp : SParams} (hv : sp.alignment = .vertical) {n : Int} (hn : 1 ≤ n)
    {s : Sheet} (hb : BlankBelow n s) : BlankBelow n (cleanTimeIndex ext sp s).2 := by
  by_cases hf : sp.frequency = []
  · rw [cleanTimeIndex_empty s hf]
    exact hb
  · rw [cleanTimeIndex_accepted s hf]
    obtain ⟨st1, s1, q, h1, h2⟩ := cleanWith_end ext sp s
    intro r c hr
    rw [h2.cells]
    exact steps_blank hv hn h1 hb r c hr

theorem cleanLoop_blank (ext : Ext) {sp : SParams} (hv : sp.alignment = .vertical) {n : Int} (hn : 1 ≤ n)
    {s : Sheet} (hb : BlankBelow n s) (st : CState) (r : Option Int) (a b : Int) :
    BlankBelow n (cleanLoop ext sp st s r (intRange a b)).2 := by
  obtain ⟨st1, s1, q, hst, hend⟩ := cleanLoop_end (ext := ext) (sp := sp) _ (st := st) (s := s)
    (reached := r) (p := a) (e := b) rfl
  have hb1 := steps_blank hv hn hst hb
  obtain ⟨res, hres⟩ : ∃ x, cleanLoop ext sp st s r (intRange a b) = x := ⟨_, rfl⟩
  rw [hres] at hend ⊢
  obtain ⟨x, u⟩ := res
  dsimp only at hend ⊢
  cases hend with
  | done hq => exact hb1
  | stop s' hq h =>
    intro r c hr
    rw [cleanStep_end h (by simp)]
    exact hb1 r c hr
  | raise err s' hq h =>
    intro r c hr
    rw [cleanStep_end h (by simp)]
    exact hb1 r c hr

/-- Rows that are empty do not change what cleaning gives. -/
theorem cleanUpTo_down (ext : Ext) {sp : SParams} (hv : sp.alignment = .vertical) {n m : Int} (h1 : 1 ≤ n)
    (hs : sp.dataStarts ≤ n) (hm : n ≤ m) {s : Sheet} (hb : BlankBelow n s) :
    (cleanUpTo ext sp s m).1 = (cleanUpTo ext sp s n).1 ∧
      (cleanUpTo ext sp s m).2.cells = (cleanUpTo ext sp s n).2.cells := by
  have hsplit : intRange sp.dataStarts (m + 1) = intRange sp.dataStarts (n + 1) ++ intRange (n + 1) (m + 1) :=
    intRange_split (by omega) (by omega)
  have hne : intRange sp.dataStarts (n + 1) ≠ [] := by
    rw [intRange_cons (by omega)]
    simp
  rcases cleanLoop_append ext sp (intRange sp.dataStarts (n + 1)) (intRange (n + 1) (m + 1)) .init s none hne with
    h | ⟨st', s', x, hlast, ⟨⟨y, u, v, hval⟩, hr, hc, hh⟩, h2, h3⟩
  · unfold cleanUpTo
    rw [hsplit, h]
    exact ⟨rfl, rfl⟩
  · have hx : x = n := by
      rw [intRange_split (b := n) hs (by omega), List.getLast?_append,
        show intRange n (n + 1) = [n] by rw [intRange_cons (by omega), intRange_nil (by omega)]] at hlast
      simpa using hlast.symm
    subst hx
    have hb' : BlankBelow x s' := by
      have := cleanLoop_blank ext hv h1 hb .init none sp.dataStarts (x + 1)
      rw [h2] at this
      exact this
    obtain ⟨z, t', k1, k2, k3⟩ := cleanLoop_down ext hv h1 hval hh (intRange (x + 1) (m + 1))
      (fun q hq => by rw [mem_intRange] at hq; omega) hb' st' (le_refl x)
    unfold cleanUpTo
    rw [hsplit, h3, k1, h2, hh]
    dsimp only
    exact ⟨estimateEnd_down hv hb' k3 hs hr hc k2, k3⟩

/-- Worksheets with the same cells, all values being in the first `n` rows, that reach row `n`. -/
structure Alike (n : Int) (s t : Sheet) : Prop where
  cells : t.cells = s.cells
  blank : BlankBelow n s
  left : n ≤ s.maxRow
  right : n ≤ t.maxRow

theorem cleanUpTo_le {ext : Ext} {sp : SParams} {s : Sheet} {m e : Int} (h : (cleanUpTo ext sp s m).1 = .ok e) :
    e + sp.timeAlignment ≤ m := by
  unfold cleanUpTo at h
  split at h
  · cases h
  · cases h
  · next pos u hloop =>
    have hpos : sp.dataStarts ≤ pos ∧ pos ≤ m := by
      rcases cleanLoop_visited _ hloop with hx | hx
      · cases hx
      · rw [mem_intRange] at hx; omega
    split at h
    · cases h
    · exact Int.le_trans (estimateEnd_ok hpos.1 h).2.2.2.1 hpos.2

theorem hasEnd_of_given {sp : SParams} (h : EndGiven sp) : hasEnd sp = true := by
  unfold hasEnd
  obtain ⟨h1, h2⟩ := h
  cases hd : sp.dataEnds with
  | none => exact absurd hd h1
  | some e =>
    rw [hd] at h2
    simpa using h2

theorem scanEnd_given {sp : SParams} (h : hasEnd sp = true) : ∃ e, sp.dataEnds = some e ∧ ∀ s, scanEnd sp s = e := by
  unfold hasEnd at h
  cases hd : sp.dataEnds with
  | none => rw [hd] at h; cases h
  | some e =>
    rw [hd] at h
    refine ⟨e, rfl, fun s => ?_⟩
    unfold scanEnd
    rw [hd]
    dsimp only at h ⊢
    rw [if_neg (by simpa using h)]

theorem cleanWith_upTo {ext : Ext} {sp : SParams} (hv : sp.alignment ≠ .other) (s : Sheet) :
    cleanWith ext sp s = cleanUpTo ext sp s (scanEnd sp s) := by
  unfold cleanWith cleanUpTo
  rw [if_neg hv]
  rfl

/-- With the end given only the cells matter. -/
theorem cleanTimeIndex_given (ext : Ext) {sp : SParams} (hd : hasEnd sp = true) {s t : Sheet}
    (h : t.cells = s.cells) : (cleanTimeIndex ext sp t).1 = (cleanTimeIndex ext sp s).1 ∧
      (cleanTimeIndex ext sp t).2.cells = (cleanTimeIndex ext sp s).2.cells ∧
      ∀ e, (cleanTimeIndex ext sp s).1 = .ok e → ∃ d, sp.dataEnds = some d ∧ e + sp.timeAlignment ≤ d := by
  by_cases hf : sp.frequency = []
  · rw [cleanTimeIndex_empty s hf, cleanTimeIndex_empty t hf]
    exact ⟨rfl, h, fun e he => by cases he⟩
  · rw [cleanTimeIndex_accepted s hf, cleanTimeIndex_accepted t hf]
    by_cases ho : sp.alignment = .other
    · unfold cleanWith
      rw [if_pos ho, if_pos ho]
      exact ⟨rfl, h, fun e he => by cases he⟩
    · obtain ⟨d, hd1, hd2⟩ := scanEnd_given hd
      rw [cleanWith_upTo ho, cleanWith_upTo ho, hd2, hd2]
      obtain ⟨k1, k2⟩ := cleanUpTo_cells ext sp h d
      exact ⟨k1, k2, fun e he => ⟨d, hd1, cleanUpTo_le he⟩⟩

/-- Both worksheets are cleaned alike. -/
theorem cleanTimeIndex_alike (ext : Ext) {sp : SParams} {n : Int} (h1 : 1 ≤ n)
    (hlie : (sp.alignment = .vertical ∧ sp.dataStarts ≤ n) ∨ (EndGiven sp ∧ sp.timeMulticolumn = false))
    {s t : Sheet} (h : Alike n s t) :
    (cleanTimeIndex ext sp t).1 = (cleanTimeIndex ext sp s).1 ∧
      Alike n (cleanTimeIndex ext sp s).2 (cleanTimeIndex ext sp t).2 ∧
      ∀ e, (cleanTimeIndex ext sp s).1 = .ok e → (∀ e, sp.dataEnds = some e → e ≤ n) → e + sp.timeAlignment ≤ n := by
  have hb : BlankBelow n (cleanTimeIndex ext sp s).2 := by
    rcases hlie with ⟨hv, _⟩ | ⟨_, hm⟩
    · exact cleanTimeIndex_blank ext hv h1 h.blank
    · intro r c hr
      exact cleanTimeIndex_none hm (h.blank r c hr)
  have w1 := (wider_clean ext sp s).1
  have w2 := (wider_clean ext sp t).1
  have hl := h.left
  have hr := h.right
  by_cases he : hasEnd sp = true
  · obtain ⟨k1, k2, k3⟩ := cleanTimeIndex_given ext he h.cells
    refine ⟨k1, ⟨k2, hb, by omega, by omega⟩, fun e hok hx => ?_⟩
    obtain ⟨d, d1, d2⟩ := k3 e hok
    exact Int.le_trans d2 (hx d d1)
  · obtain ⟨hv, hs⟩ : sp.alignment = .vertical ∧ sp.dataStarts ≤ n := by
      rcases hlie with hlie | ⟨hlie, _⟩
      · exact hlie
      · exact absurd (hasEnd_of_given hlie) he
    by_cases hf : sp.frequency = []
    · rw [cleanTimeIndex_empty s hf, cleanTimeIndex_empty t hf]
      exact ⟨rfl, h, fun e he => by cases he⟩
    · rw [cleanTimeIndex_accepted s hf, cleanWith_upTo (by rw [hv]; decide)] at *
      rw [cleanTimeIndex_accepted t hf, cleanWith_upTo (by rw [hv]; decide)] at *
      have hse : ∀ u, scanEnd sp u = u.maxRow := by
        intro u
        unfold hasEnd at he
        unfold scanEnd
        rw [hv]
        cases hd : sp.dataEnds with
        | none => rfl
        | some e =>
          rw [hd] at he
          dsimp only at he ⊢
          have : e = 0 := by simpa using he
          rw [if_pos this]
          rfl
      rw [hse] at *
      rw [hse] at *
      have hbt : BlankBelow n t := by intro r c hr; rw [h.cells]; exact h.blank r c hr
      obtain ⟨a1, a2⟩ := cleanUpTo_down ext hv h1 hs hl h.blank
      obtain ⟨b1, b2⟩ := cleanUpTo_down ext hv h1 hs hr hbt
      obtain ⟨c1, c2⟩ := cleanUpTo_cells ext sp h.cells n
      refine ⟨by rw [a1, b1, c1], ⟨by rw [a2, b2, c2], hb, by omega, by omega⟩, ?_⟩
      intro e hok _
      rw [a1] at hok
      exact cleanUpTo_le hok

/-! ### Extraction -/

/-- What extraction needs: with several frequencies the first cycle and the end are in the rows. -/
def Within (n : Int) (sp : SParams) : Prop :=
  sp.frequency.length = 1 ∨ (sp.alignment = .vertical ∧ 1 ≤ sp.dataStarts ∧
    sp.dataStarts + sp.frequency.length ≤ n + 1 ∧ ∀ e, sp.dataEnds = some e → e ≤ n)

theorem freqEnd_le {ini stop : Int} (len : Nat) (h : ini < stop) :
    (freqEnd ini stop len : Int) ≤ stop - ini + 1 ∨ len = 0 := by
  unfold freqEnd
  dsimp only
  rcases Nat.eq_zero_or_pos len with h0 | h0
  · exact .inr h0
  left
  split
  · next hm =>
    have hnn := Int.emod_nonneg (stop - ini + 1) (b := (len : Int)) (by omega)
    have hz : (stop - ini + 1) % (len : Int) = 0 := by omega
    exact Int.le_of_dvd (by omega) (Int.dvd_of_emod_eq_zero hz)
  · have hnn := Int.emod_nonneg (stop - ini + 1) (b := (len : Int)) (by omega)
    have := Int.mul_ediv_add_emod (stop - ini + 1) (len : Int)
    have h2 : 0 ≤ (stop - ini + 1) / (len : Int) := Int.ediv_nonneg (by omega) (by omega)
    have h3 : 0 ≤ (len : Int) * ((stop - ini + 1) / (len : Int)) := Int.mul_nonneg (by omega) h2
    omega

theorem multiRanges_alike (ext : Ext) {s t : Sheet} {n : Int} (h : Alike n s t) {freq : Str} {ini stop : Int}
    (header : Str) (h1 : 1 ≤ ini) (h2 : ini + freq.length ≤ n + 1) (h3 : stop ≤ n) (h4 : ini < stop) :
    multiRanges ext t freq ini header stop .vertical = multiRanges ext s freq ini header stop .vertical := by
  have hcells : ∀ (hr hc a b : Int), cellsAlong t .vertical hr hc a b = cellsAlong s .vertical hr hc a b := by
    intro hr hc a b
    unfold cellsAlong timeCell
    rw [h.cells]
  have hl : n ≤ lastPos s .vertical := h.left
  have hr' : n ≤ lastPos t .vertical := h.right
  have hslice : ∀ (hr hc a b : Int), 0 ≤ a → 0 ≤ b → b ≤ n →
      pySlice (timeLine t .vertical hr hc) a b = pySlice (timeLine s .vertical hr hc) a b := by
    intro hr hc a b ha hb hn
    rw [pySlice_line (.inl rfl) ha hb (by omega), pySlice_line (.inl rfl) ha hb (by omega), hcells]
  unfold multiRanges
  rw [if_neg (by decide), if_neg (by decide)]
  split
  · rfl
  · next hr hc _ =>
    dsimp only
    have e1 : startPairs (timeLine t .vertical hr hc) freq ini = startPairs (timeLine s .vertical hr hc) freq ini := by
      unfold startPairs
      rw [hslice hr hc _ _ (by omega) (by omega) (by omega)]
    have e2 : endPairs (timeLine t .vertical hr hc) freq ini stop .vertical =
        endPairs (timeLine s .vertical hr hc) freq ini stop .vertical := by
      unfold endPairs
      rw [if_pos rfl, if_pos rfl]
      rcases freqEnd_le freq.length h4 with hfe | hfe
      · rw [hslice hr hc _ _ (by omega) (by omega) (by omega)]
      · have : freq = [] := List.length_eq_zero_iff.1 hfe
        subst this
        simp
    rw [e1, e2]

theorem seriesRanges_alike (ext : Ext) {s t : Sheet} {n : Int} (h : Alike n s t) {sp : SParams} (hw : Within n sp)
    {stop : Int} (hd : sp.dataEnds = some stop) (hlt : sp.dataStarts < stop) (header : Str) :
    seriesRanges ext t sp.frequency sp.dataStarts header stop sp.timeAlignment sp.alignment =
      seriesRanges ext s sp.frequency sp.dataStarts header stop sp.timeAlignment sp.alignment := by
  rcases hw with hf | ⟨hv, k1, k2, k3⟩
  · exact seriesRanges_congr ext h.cells hf _ _ _ _ _
  · unfold seriesRanges
    rw [hv, singleRanges_congr ext h.cells, multiRanges_alike ext h header k1 k2 (k3 stop hd) hlt]

theorem Alike.touch {n : Int} {s t : Sheet} (h : Alike n s t) (r c r' c' : Int) :
    Alike n (s.touch r c) (t.touch r' c') :=
  ⟨h.cells, h.blank, Int.le_trans h.left (wider_touch s r c).1, Int.le_trans h.right (wider_touch t r' c').1⟩

theorem Alike.refl_left {n : Int} {s t : Sheet} (h : Alike n s t) : Alike n s s := ⟨rfl, h.blank, h.left, h.left⟩

theorem wider_touchAll : ∀ (l : List (Int × Int)) (s : Sheet), Wider s (s.touchAll l)
  | [], s => Wider.refl s
  | rc :: l, s => (wider_touch s rc.1 rc.2).trans (wider_touchAll l (s.touch rc.1 rc.2))

theorem Alike.touchAll {n : Int} {s t : Sheet} (h : Alike n s t) (l l' : List (Int × Int)) :
    Alike n (s.touchAll l) (t.touchAll l') :=
  ⟨by rw [touchAll_cells, touchAll_cells, h.cells], by intro r c hr; rw [touchAll_cells]; exact h.blank r c hr,
    Int.le_trans h.left (wider_touchAll l s).1, Int.le_trans h.right (wider_touchAll l' t).1⟩

/-- Corresponding outcomes on two worksheets. -/
def AlikeStep (n : Int) {α : Type} (r r' : Except Err (α × Sheet)) : Prop :=
  (∃ e, r = .error e ∧ r' = .error e) ∨ ∃ x u u', r = .ok (x, u) ∧ r' = .ok (x, u') ∧ Alike n u u'

theorem rangesOfArgs_alike (ext : Ext) (p : Params) {s t : Sheet} {n : Int} (h : Alike n s t) {sp : SParams}
    (hw : Within n sp) : rangesOfArgs ext p t (argsOf sp) = rangesOfArgs ext p s (argsOf sp) := by
  unfold rangesOfArgs argsOf
  dsimp only
  have e5 : orNone PVal.asInt (rawValue sp .dataEnds) = .ok sp.dataEnds := by
    show orNone PVal.asInt (sp.dataEnds.elim PVal.none PVal.int) = _
    cases sp.dataEnds <;> rfl
  have e6 : (rawValue sp .dataStarts).asInt = .ok sp.dataStarts := rfl
  have e3 : (rawValue sp .frequency).asStr = .ok sp.frequency := rfl
  have e4 : (rawValue sp .timeAlignment).asInt = .ok sp.timeAlignment := rfl
  rw [e5, e6, e3, e4, asAlign_raw]
  have hb : ∀ {α β : Type} (a : α) (f : α → Except Err β), (Except.ok a >>= f) = f a := fun _ _ => rfl
  simp only [hb]
  cases hd : sp.dataEnds with
  | none => rfl
  | some stop =>
    dsimp only
    by_cases hs : stop = 0 ∨ stop ≤ sp.dataStarts
    · rw [if_pos hs, if_pos hs]
    · rw [if_neg hs, if_neg hs]
      simp only [seriesRanges_alike ext h hw hd (by omega)]

theorem bucketLoop_alike (ext : Ext) (p : Params) {n : Int} : ∀ (sps : List SParams) {s t : Sheet} (bs : List Bucket),
    (∀ sp ∈ sps, Within n sp) → Alike n s t →
    AlikeStep n (bucketLoop ext p (sps.map argsOf) s bs) (bucketLoop ext p (sps.map argsOf) t bs)
  | [], s, t, bs, _, h => .inr ⟨_, _, _, rfl, rfl, h⟩
  | sp :: sps, s, t, bs, hw, h => by
    rw [List.map_cons]
    unfold bucketLoop
    rw [rangesOfArgs_alike ext p h (hw sp (by simp))]
    split
    · exact .inl ⟨_, rfl, rfl⟩
    · split
      · exact .inl ⟨_, rfl, rfl⟩
      · exact bucketLoop_alike ext p sps _ (fun x hx => hw x (by simp [hx])) (h.touchAll _ _)

theorem seriesStep_alike (ext : Ext) {p : Params} {i : Nat} {sp : SParams} (hsp : p.typed i = .ok sp) {n : Int}
    {s t : Sheet} (h : Alike n s t) (hw : Within n sp) (hlt : ∀ e, sp.dataEnds = some e → sp.dataStarts < e)
    (bs : List Bucket) : AlikeStep n (seriesStep ext p i s bs) (seriesStep ext p i t bs) := by
  unfold seriesStep
  rw [bind_intro hsp, bind_intro hsp, getSeries_congr ext sp h.cells]
  cases extractors.find? fun x => x.accepts sp with
  | none => exact .inl ⟨_, rfl, rfl⟩
  | some x =>
    dsimp only
    cases getSeries ext sp s with
    | error e => exact .inl ⟨_, rfl, rfl⟩
    | ok nv =>
      rw [bind_intro rfl, bind_intro rfl]
      by_cases hn : nv.isEmpty = true
      · rw [if_pos hn, if_pos hn]
        exact .inl ⟨_, rfl, rfl⟩
      · rw [if_neg hn, if_neg hn]
        cases singleHeader sp.timeMulticolumn sp.timeHeader with
        | error e => exact .inl ⟨_, rfl, rfl⟩
        | ok a =>
          rw [bind_intro rfl, bind_intro rfl]
          cases hd : sp.dataEnds with
          | none => exact .inl ⟨_, rfl, rfl⟩
          | some stop =>
            dsimp only
            rw [seriesRanges_alike ext (h.touchAll (seriesReads ext sp s) (seriesReads ext sp t)) hw hd (hlt stop hd)]
            cases seriesRanges ext (s.touchAll (seriesReads ext sp s)) sp.frequency sp.dataStarts a stop
                sp.timeAlignment sp.alignment with
            | error e => exact .inl ⟨_, rfl, rfl⟩
            | ok prs =>
              rw [bind_intro rfl, bind_intro rfl]
              cases putAll (prs.zip nv) bs with
              | error e => exact .inl ⟨_, rfl, rfl⟩
              | ok bs' => exact .inr ⟨_, _, _, rfl, rfl, (h.touchAll _ _).touchAll _ _⟩

theorem seriesLoop_alike (ext : Ext) {p : Params} {n : Int} : ∀ (is : List Nat) {s t : Sheet} (bs : List Bucket),
    (∀ i ∈ is, ∃ sp, p.typed i = .ok sp ∧ Within n sp ∧ ∀ e, sp.dataEnds = some e → sp.dataStarts < e) →
    Alike n s t → AlikeStep n (seriesLoop ext p is s bs) (seriesLoop ext p is t bs)
  | [], s, t, bs, _, h => .inr ⟨_, _, _, rfl, rfl, h⟩
  | i :: is, s, t, bs, hi, h => by
    unfold seriesLoop
    obtain ⟨sp, hsp, hw, hlt⟩ := hi i (by simp)
    rcases seriesStep_alike ext hsp h hw hlt bs with ⟨e, k1, k2⟩ | ⟨x, u, u', k1, k2, k3⟩
    · rw [k1, k2]
      exact .inl ⟨_, rfl, rfl⟩
    · rw [k1, k2]
      exact seriesLoop_alike ext is x (fun j hj => hi j (by simp [hj])) k3

theorem getData_alike (ext : Ext) {p : Params} {n : Int} {sps : List SParams} (hp : HasSeries p sps)
    (hw : ∀ sp ∈ sps, Within n sp) {s t : Sheet} (h : Alike n s t) :
    (getData ext p t).1 = (getData ext p s).1 ∧ Alike n (getData ext p s).2 (getData ext p t).2 := by
  unfold getData
  rw [rangeArgs_series hp]
  have hb : ∀ {α β : Type} (a : α) (f : α → Except Err β), (Except.ok a).bind f = f a := fun _ _ => rfl
  rw [hb, hb]
  rcases bucketLoop_alike ext p sps [] hw h with ⟨e, k1, k2⟩ | ⟨bs, u, u', k1, k2, k3⟩
  · rw [k1, k2]
    exact ⟨rfl, h⟩
  · rw [k1, k2]
    dsimp only
    have l1 : Params.len (p .headersCoord) = .ok sps.length := by
      rw [hp]; unfold Params.len; simp
    rw [l1]
    dsimp only
    have hall : ∀ i ∈ List.range sps.length, ∃ sp, p.typed i = .ok sp ∧ Within n sp ∧
        ∀ e, sp.dataEnds = some e → sp.dataStarts < e := by
      intro i hi
      rw [List.mem_range] at hi
      refine ⟨sps[i], typed_of_series hp (List.getElem?_eq_getElem hi), hw _ (List.getElem_mem hi), ?_⟩
      obtain ⟨s1, out, hr⟩ := bucketLoop_all k1 (argsOf sps[i]) (List.mem_map.2 ⟨_, List.getElem_mem hi, rfl⟩)
      obtain ⟨last, e1, _, e3⟩ := rangesOfArgs_needs hr
      intro e he
      rw [e1] at he
      cases he
      exact e3
    rcases seriesLoop_alike ext (List.range sps.length) bs hall k3 with ⟨e, k1, k2⟩ | ⟨bs', w, w', k1, k2, k4⟩
    · rw [k1, k2]
      exact ⟨rfl, k3⟩
    · rw [k1, k2]
      exact ⟨rfl, k4⟩

/-! ### Cleaning of all time indexes -/

/-- Ends found are in the rows, if that matters. -/
def EndsIn (n : Int) (sps : List SParams) (e : Int) : Prop := (∀ sp ∈ sps, sp.frequency.length = 1) ∨ e ≤ n

/-- Corresponding outcomes of cleaning. -/
def AlikeClean (n : Int) (r r' : Except Err Unit × Params × Sheet) : Prop :=
  r'.1 = r.1 ∧ r'.2.1 = r.2.1 ∧ Alike n r.2.2 r'.2.2 ∧
    (r.1 = .ok () → ∃ sps, HasSeries r.2.1 sps ∧ ∀ sp ∈ sps, Within n sp)

theorem settled_within {n : Int} {sps : List SParams} (h : Settled n sps) : ∀ sp ∈ sps, Within n sp := by
  intro sp hsp
  rcases h.several with h1 | h1
  · exact .inl (h1 sp hsp)
  · obtain ⟨v, a, b, c, _⟩ := h1 sp hsp
    exact .inr ⟨v, a, b, c⟩

theorem endingAt_fields (e : Int) (sp : SParams) : (endingAt e sp).alignment = sp.alignment ∧
    (endingAt e sp).dataStarts = sp.dataStarts ∧ (endingAt e sp).frequency = sp.frequency ∧
    (endingAt e sp).timeAlignment = sp.timeAlignment ∧ (endingAt e sp).timeMulticolumn = sp.timeMulticolumn ∧
    ((endingAt e sp).dataEnds = sp.dataEnds ∨ (endingAt e sp).dataEnds = some e ∧ ¬ EndGiven sp) := by
  unfold endingAt EndGiven
  split
  · next d hd =>
    split
    · next h0 => simp [hd, h0]
    · simp
  · next hd => simp [hd]

theorem settled_set {n : Int} {pre post : List SParams} {sp : SParams} (h : Settled n (pre ++ sp :: post)) {e : Int}
    (he : EndsIn n (pre ++ sp :: post) e) : Settled n (pre ++ endingAt e sp :: post) := by
  have key : ∀ x ∈ pre ++ endingAt e sp :: post, x ∈ pre ++ sp :: post ∨ x = endingAt e sp := by
    intro x hx
    simp only [List.mem_append, List.mem_cons] at hx ⊢
    tauto
  have hmem : sp ∈ pre ++ sp :: post := by simp
  obtain ⟨a1, a2, a3, a4, a6, a5⟩ := endingAt_fields e sp
  refine ⟨fun x hx => ?_, ?_⟩
  · rcases key x hx with h1 | rfl
    · exact h.lies x h1
    · rw [a1, a2, a6]
      rcases h.lies sp hmem with h1 | ⟨h1, h2⟩
      · exact .inl h1
      · refine .inr ⟨?_, h2⟩
        rcases a5 with a5 | ⟨_, a5⟩
        · unfold EndGiven; rw [a5]; exact h1
        · exact absurd h1 a5
  · rcases h.several with h1 | h1
    · left
      intro x hx
      rcases key x hx with h2 | rfl
      · exact h1 x h2
      · rw [a3]; exact h1 sp hmem
    · rcases he with he | he
      · left
        intro x hx
        rcases key x hx with h2 | rfl
        · exact he x h2
        · rw [a3]; exact he sp hmem
      · right
        intro x hx
        rcases key x hx with h2 | rfl
        · exact h1 x h2
        · obtain ⟨b0, b1, b2, b3, b4⟩ := h1 sp hmem
          rw [a1, a2, a3, a4]
          refine ⟨b0, b1, b2, ?_, b4⟩
          intro e' he'
          rcases a5 with a5 | ⟨a5, _⟩
          · rw [a5] at he'; exact b3 e' he'
          · rw [a5] at he'; cases he'; exact he

theorem cleanOnce_alike (ext : Ext) {p : Params} {i : Nat} {n : Int} (h1 : 1 ≤ n) {pre post : List SParams}
    {sp : SParams} (hin : Settled n (pre ++ sp :: post)) (hsp : p.typed i = .ok sp) {s t : Sheet} (h : Alike n s t)
    (ends : List (Str × Int)) (hends : ∀ kv ∈ ends, EndsIn n (pre ++ sp :: post) kv.2) (header : Str) :
    (cleanOnce ext p t ends i header).1 = (cleanOnce ext p s ends i header).1 ∧
      Alike n (cleanOnce ext p s ends i header).2 (cleanOnce ext p t ends i header).2 ∧
      ∀ e ends', (cleanOnce ext p s ends i header).1 = .ok (e, ends') →
        EndsIn n (pre ++ sp :: post) e ∧ ∀ kv ∈ ends', EndsIn n (pre ++ sp :: post) kv.2 := by
  have hmem : sp ∈ pre ++ sp :: post := by simp
  unfold cleanOnce
  cases hE : endOf ends header with
  | some e0 =>
    refine ⟨rfl, h, ?_⟩
    intro e ends' he
    cases he
    unfold endOf at hE
    cases hf : ends.find? fun kv => kv.1 = header with
    | none => rw [hf] at hE; cases hE
    | some kv =>
      rw [hf] at hE
      cases hE
      exact ⟨hends _ (List.mem_of_find?_eq_some hf), hends⟩
  | none =>
    dsimp only
    rw [hsp]
    dsimp only
    obtain ⟨k1, k2, k3⟩ := cleanTimeIndex_alike ext h1 (hin.lies sp hmem) h
    have hbound : ∀ e, (cleanTimeIndex ext sp s).1 = .ok e → EndsIn n (pre ++ sp :: post) e := by
      intro e he
      rcases hin.several with h2 | h2
      · exact .inl h2
      · obtain ⟨_, _, _, b3, b4⟩ := h2 sp hmem
        have := k3 e he b3
        exact .inr (by omega)
    obtain ⟨res, hres⟩ : ∃ r, cleanTimeIndex ext sp s = r := ⟨_, rfl⟩
    obtain ⟨res', hres'⟩ : ∃ r, cleanTimeIndex ext sp t = r := ⟨_, rfl⟩
    rw [hres, hres'] at k1 k2
    rw [hres] at hbound
    rw [hres, hres']
    obtain ⟨x, u⟩ := res
    obtain ⟨x', u'⟩ := res'
    dsimp only at k1 k2 hbound
    subst k1
    cases x' with
    | error e => exact ⟨rfl, k2, fun _ _ he => by cases he⟩
    | ok stop =>
      dsimp only
      split
      · exact ⟨rfl, k2, fun _ _ he => by cases he⟩
      · refine ⟨rfl, k2, ?_⟩
        intro e ends' he
        cases he
        refine ⟨hbound _ rfl, ?_⟩
        intro kv hkv
        rcases List.mem_append.1 hkv with hkv | hkv
        · exact hends kv hkv
        · rw [List.mem_singleton] at hkv
          subst hkv
          exact hbound _ rfl

theorem EndsIn.set {n : Int} {pre post : List SParams} {sp : SParams} {e e' : Int}
    (h : EndsIn n (pre ++ sp :: post) e) : EndsIn n (pre ++ endingAt e' sp :: post) e := by
  rcases h with h | h
  · left
    intro x hx
    have hf : (endingAt e' sp).frequency = sp.frequency := by
      unfold endingAt
      split
      · split <;> rfl
      · rfl
    simp only [List.mem_append, List.mem_cons] at hx
    rcases hx with hx | rfl | hx
    · exact h x (by simp [hx])
    · rw [hf]; exact h sp (by simp)
    · exact h x (by simp [hx])
  · exact .inr h

theorem cleanSeries_alike (ext : Ext) {n : Int} (h1 : 1 ≤ n) : ∀ (rest : List SParams) {pre : List SParams}
    {p : Params} {s t : Sheet} {ends : List (Str × Int)}, HasSeries p (pre ++ rest) → Settled n (pre ++ rest) →
    Alike n s t → (∀ kv ∈ ends, EndsIn n (pre ++ rest) kv.2) →
    AlikeClean n (cleanSeries ext (List.range' pre.length rest.length) p s ends)
      (cleanSeries ext (List.range' pre.length rest.length) p t ends)
  | [], pre, p, s, t, ends, hp, hin, h, _ => ⟨rfl, rfl, h, fun _ => ⟨_, hp, (settled_within hin)⟩⟩
  | sp :: rest, pre, p, s, t, ends, hp, hin, h, hends => by
    have hi : (pre ++ sp :: rest)[pre.length]? = some sp := by simp
    rw [List.length_cons, List.range'_succ]
    unfold cleanSeries
    cases e1 : sp.timeHeader with
    | multi cs =>
      rw [header_of_multi hp hi e1]
      exact ⟨rfl, rfl, h, fun he => by cases he⟩
    | single a =>
      rw [header_of_series hp hi e1]
      dsimp only
      obtain ⟨k1, k2, k3⟩ := cleanOnce_alike ext h1 hin (typed_of_series hp hi) h ends hends a
      obtain ⟨res, hres⟩ : ∃ r, cleanOnce ext p s ends pre.length a = r := ⟨_, rfl⟩
      obtain ⟨res', hres'⟩ : ∃ r, cleanOnce ext p t ends pre.length a = r := ⟨_, rfl⟩
      rw [hres, hres'] at k1 k2
      rw [hres] at k3
      rw [hres, hres']
      obtain ⟨x, u⟩ := res
      obtain ⟨x', u'⟩ := res'
      dsimp only at k1 k2 k3
      subst k1
      match x' with
      | .error e => exact ⟨rfl, rfl, k2, fun he => by cases he⟩
      | .ok (stop, ends') =>
        dsimp only
        rw [index_of_series hp .dataEnds hi]
        dsimp only
        have h3 := setEnd_series stop hp
        obtain ⟨b1, b2⟩ := k3 stop ends' rfl
        have := cleanSeries_alike ext h1 rest (pre := pre ++ [endingAt stop sp]) (s := u) (t := u') (ends := ends')
          (by rw [List.append_assoc]; exact h3) (by rw [List.append_assoc]; exact settled_set hin b1) k2
          (fun kv hkv => by rw [List.append_assoc]; exact (b2 kv hkv).set)
        rw [List.length_append, List.length_singleton] at this
        exact this

theorem cleanData_alike (ext : Ext) {n : Int} (h1 : 1 ≤ n) {p : Params} {sps : List SParams} (hp : HasSeries p sps)
    (hin : Settled n sps) {s t : Sheet} (h : Alike n s t) : AlikeClean n (cleanData ext p s) (cleanData ext p t) := by
  unfold cleanData
  cases sps with
  | nil =>
    have e : Params.index (p .timeMulticolumn) 0 = .error .indexError := by rw [hp]; rfl
    rw [e]
    exact ⟨rfl, rfl, h, fun h => by cases h⟩
  | cons sp rest =>
    have hi : (sp :: rest)[0]? = some sp := rfl
    rw [index_of_series hp .timeMulticolumn hi]
    dsimp only
    split
    · unfold cleanMulti
      rw [typed_of_series hp hi, index_of_series hp .dataEnds hi]
      dsimp only
      have hmem : sp ∈ sp :: rest := by simp
      obtain ⟨k1, k2, k3⟩ := cleanTimeIndex_alike ext h1 (hin.lies sp hmem) h
      obtain ⟨res, hres⟩ : ∃ res, cleanTimeIndex ext sp s = res := ⟨_, rfl⟩
      obtain ⟨res', hres'⟩ : ∃ res, cleanTimeIndex ext sp t = res := ⟨_, rfl⟩
      rw [hres, hres'] at k1 k2
      rw [hres] at k3
      rw [hres, hres']
      obtain ⟨x, u⟩ := res
      obtain ⟨x', u'⟩ := res'
      dsimp only at k1 k2 k3
      subst k1
      cases x' with
      | error e => exact ⟨rfl, rfl, k2, fun h => by cases h⟩
      | ok stop =>
        dsimp only
        split
        · exact ⟨rfl, rfl, k2, fun _ => ⟨_, hp, (settled_within hin)⟩⟩
        · obtain ⟨q, hq⟩ := setItem_ends hp stop
          rw [hq]
          refine ⟨rfl, rfl, k2, fun _ => ⟨_, setItem_dataEnds hp (by simp) stop hq, ?_⟩⟩
          intro x hx
          obtain ⟨y, hy, rfl⟩ := List.mem_map.1 hx
          rcases hin.several with h2 | h2
          · exact .inl (h2 y hy)
          · obtain ⟨b0, b1, b2, _, _⟩ := h2 y hy
            obtain ⟨_, _, _, c3, c4⟩ := h2 sp hmem
            have := k3 stop rfl c3
            refine .inr ⟨b0, b1, b2, ?_⟩
            intro e he
            cases he
            omega
    · have e : Params.len (p .timeHeaderCoord) = .ok (sp :: rest).length := by
        rw [hp]; unfold Params.len; simp
      rw [e]
      dsimp only
      rw [List.range_eq_range']
      exact cleanSeries_alike ext h1 (sp :: rest) (pre := []) hp hin h (by simp)

/-- Cleaning and extraction. -/
theorem scrape_alike (ext : Ext) {n : Int} (h1 : 1 ≤ n) {p : Params} {sps : List SParams} (hp : HasSeries p sps)
    (hin : Settled n sps) {s t : Sheet} (h : Alike n s t) :
    (scrape ext p t).1 = (scrape ext p s).1 ∧ (scrape ext p t).2.1 = (scrape ext p s).2.1 ∧
      (scrape ext p t).2.2.cells = (scrape ext p s).2.2.cells := by
  have hc := cleanData_alike ext h1 hp hin h
  unfold scrape
  obtain ⟨res, hres⟩ : ∃ r, cleanData ext p s = r := ⟨_, rfl⟩
  obtain ⟨res', hres'⟩ : ∃ r, cleanData ext p t = r := ⟨_, rfl⟩
  rw [hres, hres'] at hc
  rw [hres, hres']
  obtain ⟨x, q, u⟩ := res
  obtain ⟨x', q', u'⟩ := res'
  obtain ⟨k1, k2, k3, k4⟩ := hc
  dsimp only at k1 k2 k3 k4
  subst k1 k2
  cases x' with
  | error e => exact ⟨rfl, rfl, k3.cells⟩
  | ok _ =>
    obtain ⟨sps1, m1, m2⟩ := k4 rfl
    obtain ⟨g1, g2⟩ := getData_alike ext m1 m2 k3
    exact ⟨g1, rfl, g2.cells⟩

end Xls
