/-
Cleaning of a table that stands elsewhere on a worksheet, among other things.
-/
import Verif.Spec.Moved
import Verif.Lemmas.Turned

set_option autoImplicit false

namespace Xls

open Spec

/-! ### Cells -/

/-- Two worksheets with the same values in the cells `D` of a table that has moved. -/
structure AlikeAt (D : Int → Int → Prop) (al : Align) (dr dc : Int) (s t : Sheet) : Prop where
  cells : ∀ r c, D r c → t.cells (r + dr) (c + dc) = s.cells r c
  extent : lastUsed al t = lastUsed al s + along al dr dc

theorem AlikeAt.touch {D : Int → Int → Prop} {al : Align} {dr dc : Int} {s t : Sheet} (h : AlikeAt D al dr dc s t)
    (r c : Int) : AlikeAt D al dr dc (s.touch r c) (t.touch (r + dr) (c + dc)) := by
  refine ⟨h.cells, ?_⟩
  have := h.extent
  unfold lastUsed along at *
  unfold Sheet.touch
  split
  · rw [if_pos ‹_›, if_pos ‹_›] at this
    rw [if_pos ‹_›] at this
    dsimp only
    omega
  · rw [if_neg ‹_›, if_neg ‹_›] at this
    rw [if_neg ‹_›] at this
    dsimp only
    omega

theorem AlikeAt.set {D : Int → Int → Prop} {al : Align} {dr dc : Int} {s t : Sheet} (h : AlikeAt D al dr dc s t)
    (r c : Int) (v : Cell) : AlikeAt D al dr dc (s.set r c v) (t.set (r + dr) (c + dc) v) := by
  refine ⟨?_, (h.touch r c).extent⟩
  intro r' c' hD
  show (if r' + dr = r + dr ∧ c' + dc = c + dc then v else t.cells (r' + dr) (c' + dc)) =
    if r' = r ∧ c' = c then v else s.cells r' c'
  rw [h.cells r' c' hD]
  by_cases e : r' = r ∧ c' = c
  · rw [if_pos e, if_pos (by omega)]
  · rw [if_neg e, if_neg (by omega)]

theorem moved_axis (al : Align) (dr dc hr hc pos : Int) :
    axisCell al (hr + dr) (hc + dc) (pos + along al dr dc) =
      ((axisCell al hr hc pos).1 + dr, (axisCell al hr hc pos).2 + dc) := by
  cases al <;> rfl

/-- Cells of two positions that exist. -/
theorem axis_exists {al : Align} {hr hc pos : Int} (h1 : 1 ≤ hr) (h2 : 1 ≤ hc) (h3 : 1 ≤ pos) :
    1 ≤ (axisCell al hr hc pos).1 ∧ 1 ≤ (axisCell al hr hc pos).2 := by
  cases al <;> exact ⟨by assumption, by assumption⟩

theorem Spec.MovedCell.coords {dr dc : Int} {a b : Str} (h : MovedCell dr dc a b) :
    ∃ r c : Int, coordOf a = .ok (r, c) ∧ coordOf b = .ok (r + dr, c + dc) ∧ 1 ≤ r ∧ 1 ≤ c ∧ 1 ≤ r + dr ∧ 1 ≤ c + dc := by
  obtain ⟨r, c, r', c', h1, h2, h3, h4, h5, h6, rfl, rfl⟩ := h
  refine ⟨r, c, coordOf_coordStr h1 h2, ?_, by omega, by omega, by omega, by omega⟩
  rw [coordOf_coordStr h3 h4, h5, h6]

theorem Spec.MovedCell.eq_iff {dr dc : Int} {a b a' b' : Str} (h : MovedCell dr dc a b)
    (h' : MovedCell dr dc a' b') : a = a' ↔ b = b' := by
  obtain ⟨r, c, r', c', h1, h2, h3, h4, h5, h6, rfl, rfl⟩ := h
  obtain ⟨q, d, q', d', k1, k2, k3, k4, k5, k6, rfl, rfl⟩ := h'
  constructor
  · intro e
    obtain ⟨rfl, rfl⟩ := coordStr_inj h1 h2 k1 k2 e
    have : r' = q' := by omega
    have : c' = d' := by omega
    subst_vars
    rfl
  · intro e
    obtain ⟨rfl, rfl⟩ := coordStr_inj h3 h4 k3 k4 e
    have : r = q := by omega
    have : c = d := by omega
    subst_vars
    rfl

/-! ### What of the worksheet a series needs -/

/-- The cells in line with a coordinate at a position are of the table. -/
def LineIn (D : Int → Int → Prop) (al : Align) (a : Str) (pos : Int) : Prop :=
  ∀ r c, coordOf a = .ok (r, c) → D (axisCell al r c pos).1 (axisCell al r c pos).2

/-- All cells that matter for a series are of the table, up to the position `hi` if there is one. -/
structure WithinAt (D : Int → Int → Prop) (al : Align) (hi : Option Int) (sp : SParams) : Prop where
  head : ∀ a ∈ sp.headerCoord :: sp.composedHeaders.getD [], ∀ r c, coordOf a = .ok (r, c) → D r c
  line : ∀ a ∈ sp.headerCoord :: timeCoords sp.timeHeader, ∀ pos,
    min sp.dataStarts (sp.dataStarts + sp.timeAlignment) ≤ pos → (∀ h, hi = some h → pos ≤ h) → LineIn D al a pos
  ends : ∀ h, hi = some h → ∃ e, sp.dataEnds = some e ∧ e + 1 ≤ h ∧ e + sp.timeAlignment ≤ h ∧ sp.frequency.length = 1

/-- A series of the table and the one it becomes. -/
structure Moved1 (D : Int → Int → Prop) (al : Align) (dr dc : Int) (sp sp' : SParams) : Prop where
  moved : Moved al dr dc sp sp'
  on : OnSheet sp
  on' : OnSheet sp'
  within : ∃ hi, WithinAt D al hi sp

theorem Moved1.align {D : Int → Int → Prop} {al : Align} {dr dc : Int} {sp sp' : SParams}
    (h : Moved1 D al dr dc sp sp') : sp.alignment = al ∧ sp'.alignment = al := by
  refine ⟨h.moved.alignment, ?_⟩
  rw [h.moved.rest]
  exact h.moved.alignment

/-- Corresponding outcomes. -/
structure SameOn {α : Type} (D : Int → Int → Prop) (al : Align) (dr dc : Int) (x y : α × Sheet) : Prop where
  value : y.1 = x.1
  sheet : AlikeAt D al dr dc x.2 y.2

/-! ### One time value -/

theorem multiParts_moved (ext : Ext) {D : Int → Int → Prop} {al : Align} {dr dc pos : Int} (h1 : 1 ≤ pos)
    (h2 : 1 ≤ pos + along al dr dc) {as bs : List Str} (h : List.Forall₂ (MovedCell dr dc) as bs) :
    (∀ a ∈ as, LineIn D al a pos) → ∀ {s t : Sheet}, AlikeAt D al dr dc s t →
    SameOn D al dr dc (multiParts ext al pos s as) (multiParts ext al (pos + along al dr dc) t bs) := by
  induction h with
  | nil => intro _ s t hst; exact ⟨rfl, hst⟩
  | @cons a b as bs hab _ ih =>
    intro hD s t hst
    obtain ⟨r, c, e1, e2, p1, p2, p3, p4⟩ := hab.coords
    unfold multiParts
    rw [e1, e2]
    dsimp only
    have hx' : 1 ≤ (axisCell al (r + dr) (c + dc) (pos + along al dr dc)).1 ∧
        1 ≤ (axisCell al (r + dr) (c + dc) (pos + along al dr dc)).2 := axis_exists p3 p4 h2
    rw [if_pos (axis_exists p1 p2 h1), if_pos hx', moved_axis]
    dsimp only
    rw [hst.cells _ _ (hD a (by simp) r c e1)]
    split
    · exact ⟨rfl, (hst.touch r c).touch _ _⟩
    · have := ih (fun a ha => hD a (by simp [ha])) ((hst.touch r c).touch (axisCell al r c pos).1 (axisCell al r c pos).2)
      revert this
      rcases multiParts ext al pos ((s.touch r c).touch (axisCell al r c pos).1 (axisCell al r c pos).2) as with ⟨x, u⟩
      rcases multiParts ext al (pos + along al dr dc) ((t.touch (r + dr) (c + dc)).touch ((axisCell al r c pos).1 + dr)
        ((axisCell al r c pos).2 + dc)) bs with ⟨y, v⟩
      rintro ⟨k1, k2⟩
      dsimp only at k1 k2
      subst k1
      cases y with
      | error e => exact ⟨rfl, k2⟩
      | ok ps => exact ⟨rfl, k2⟩

theorem getTimeValue_moved (ext : Ext) {D : Int → Int → Prop} {al : Align} {dr dc pos : Int} {sp sp' : SParams}
    (h : Moved al dr dc sp sp') (h1 : 1 ≤ pos) (h2 : 1 ≤ pos + along al dr dc)
    (hD : ∀ a ∈ timeCoords sp.timeHeader, LineIn D al a pos) {s t : Sheet} (hst : AlikeAt D al dr dc s t) :
    SameOn D al dr dc (getTimeValue ext sp pos s) (getTimeValue ext sp' (pos + along al dr dc) t) := by
  have hm : sp'.timeMulticolumn = sp.timeMulticolumn := by rw [h.rest]
  have ha : sp'.alignment = al := by rw [h.rest]; exact h.alignment
  unfold getTimeValue
  rw [hm, ha, h.alignment]
  have hth := h.timeHeader
  generalize sp.timeHeader = th at hth hD
  generalize sp'.timeHeader = th' at hth
  cases hth with
  | @single a b hab =>
    cases sp.timeMulticolumn with
    | true => exact ⟨rfl, hst⟩
    | false =>
      obtain ⟨r, c, e1, e2, p1, p2, p3, p4⟩ := hab.coords
      dsimp only
      rw [e1, e2]
      dsimp only
      have hx' : 1 ≤ (axisCell al (r + dr) (c + dc) (pos + along al dr dc)).1 ∧
          1 ≤ (axisCell al (r + dr) (c + dc) (pos + along al dr dc)).2 := axis_exists p3 p4 h2
      rw [if_pos (axis_exists p1 p2 h1), if_pos hx', moved_axis]
      dsimp only
      rw [hst.cells _ _ (hD a (by simp [timeCoords]) r c e1)]
      exact ⟨rfl, (hst.touch r c).touch _ _⟩
  | @multi as bs hab =>
    cases sp.timeMulticolumn with
    | false => exact ⟨rfl, hst⟩
    | true =>
      dsimp only
      have := multiParts_moved ext h1 h2 hab hD hst
      revert this
      rcases multiParts ext al pos s as with ⟨x, u⟩
      rcases multiParts ext al (pos + along al dr dc) t bs with ⟨y, v⟩
      rintro ⟨k1, k2⟩
      dsimp only at k1 k2
      subst k1
      cases y with
      | error e => exact ⟨rfl, k2⟩
      | ok ps => exact ⟨rfl, k2⟩

theorem timeHeaderCell_moved {dr dc : Int} {th th' : TimeHeader} (h : MovedHeader dr dc th th') :
    (∃ r c a, a ∈ timeCoords th ∧ coordOf a = .ok (r, c) ∧ timeHeaderCell th = .ok (r, c) ∧
      timeHeaderCell th' = .ok (r + dr, c + dc)) ∨
      ∃ e, timeHeaderCell th = .error e ∧ timeHeaderCell th' = .error e := by
  cases h with
  | @single a b hab =>
    obtain ⟨r, c, e1, e2, _⟩ := hab.coords
    exact .inl ⟨r, c, a, by simp [timeCoords], e1, e1, e2⟩
  | multi hab =>
    cases hab with
    | nil => exact .inr ⟨_, rfl, rfl⟩
    | @cons a b _ _ hab _ =>
      obtain ⟨r, c, e1, e2, _⟩ := hab.coords
      exact .inl ⟨r, c, a, by simp [timeCoords], e1, e1, e2⟩

/-! ### The cleaning loop -/

theorem hasEnd_moved {al : Align} {dr dc : Int} {sp sp' : SParams} (h : Moved al dr dc sp sp') (o : OnSheet sp)
    (o' : OnSheet sp') : hasEnd sp' = hasEnd sp := by
  have h1 := o.ends
  have h2 := o'.ends
  rw [h.ends] at h2
  unfold hasEnd
  rw [h.ends]
  cases he : sp.dataEnds with
  | none => rfl
  | some e =>
    have k1 := h1 e he
    have k2 := h2 (e + along al dr dc) (by rw [he]; rfl)
    have e1 : (e != 0) = true := by simp; omega
    have e2 : (e + along al dr dc != 0) = true := by simp; omega
    show (e + along al dr dc != 0) = (e != 0)
    rw [e1, e2]

theorem handleError_moved {D : Int → Int → Prop} {al : Align} {dr dc : Int} {sp sp' : SParams}
    (he : hasEnd sp' = hasEnd sp) (st : CState) {s t : Sheet} (hst : AlikeAt D al dr dc s t) (r c : Int) (e : Err) :
    SameOn D al dr dc (handleError sp st s r c e) (handleError sp' st t (r + dr) (c + dc) e) := by
  unfold handleError
  rw [he]
  split
  · exact ⟨rfl, hst.set r c _⟩
  · split <;> exact ⟨rfl, hst⟩

theorem cleanValue_moved (ext : Ext) {D : Int → Int → Prop} {al : Align} {dr dc : Int} {sp sp' : SParams}
    (h : Moved al dr dc sp sp') (he : hasEnd sp' = hasEnd sp) (st : CState) {s t : Sheet}
    (hst : AlikeAt D al dr dc s t) (r c : Int) (curr next : Cell) :
    SameOn D al dr dc (cleanValue ext sp st s r c curr next)
      (cleanValue ext sp' st t (r + dr) (c + dc) curr next) := by
  have h1 : mustBeTimeValue sp' curr = mustBeTimeValue sp curr := by rw [h.rest]; rfl
  have h2 : ∀ a b d e, parseTimeValue ext sp' a b d e = parseTimeValue ext sp a b d e := by
    intro a b d e
    have hs : ∀ old ps, searchParser ext sp' b d e old ps = searchParser ext sp b d e old ps := by
      intro old ps
      induction ps with
      | nil => rfl
      | cons p ps ih =>
        unfold searchParser
        rw [ih, h.rest]
    unfold parseTimeValue
    simp only [hs]
    rw [h.rest]
  have h3 : ∀ a b, correctStep sp' a b = correctStep sp a b := by intro a b; rw [h.rest]; rfl
  have h4 : sp'.frequency = sp.frequency := by rw [h.rest]
  have h5 : sp'.continuity = sp.continuity := by rw [h.rest]
  have h6 : sp'.blankRows = sp.blankRows := by rw [h.rest]
  unfold cleanValue
  rw [h1]
  split
  · dsimp only
    rw [h2]
    split
    · exact handleError_moved he _ hst _ _ _
    · rw [h3]
      split
      · exact handleError_moved he _ hst _ _ _
      · exact ⟨rfl, hst⟩
      · rw [h4]
        split
        · exact handleError_moved he _ hst _ _ _
        · exact ⟨rfl, hst.set r c _⟩
  · rw [h5, h6]
    split <;> exact ⟨rfl, hst⟩

theorem cleanStep_moved (ext : Ext) {D : Int → Int → Prop} {al : Align} {dr dc pos : Int} {sp sp' : SParams}
    (h : Moved al dr dc sp sp') (he : hasEnd sp' = hasEnd sp) (h1 : 1 ≤ pos) (h2 : 1 ≤ pos + along al dr dc)
    (hD : ∀ a ∈ timeCoords sp.timeHeader, LineIn D al a pos)
    (hD' : ∀ a ∈ timeCoords sp.timeHeader, LineIn D al a (pos + 1)) (st : CState) {s t : Sheet}
    (hst : AlikeAt D al dr dc s t) :
    SameOn D al dr dc (cleanStep ext sp st s pos) (cleanStep ext sp' st t (pos + along al dr dc)) := by
  have ha : sp'.alignment = al := by rw [h.rest]; exact h.alignment
  unfold cleanStep
  have k := getTimeValue_moved ext h h1 h2 hD hst
  revert k
  rcases getTimeValue ext sp pos s with ⟨x, u⟩
  rcases getTimeValue ext sp' (pos + along al dr dc) t with ⟨y, v⟩
  rintro ⟨k1, k2⟩
  dsimp only at k1 k2
  subst k1
  cases y with
  | error e => exact ⟨rfl, k2⟩
  | ok curr =>
    dsimp only
    have k := getTimeValue_moved ext h (pos := pos + 1) (by omega) (by omega) hD' k2
    rw [show pos + 1 + along al dr dc = pos + along al dr dc + 1 from by omega] at k
    revert k
    rcases getTimeValue ext sp (pos + 1) u with ⟨x, u1⟩
    rcases getTimeValue ext sp' (pos + along al dr dc + 1) v with ⟨y, v1⟩
    rintro ⟨k3, k4⟩
    dsimp only at k3 k4
    subst k3
    cases y with
    | error e => exact ⟨rfl, k4⟩
    | ok next =>
      dsimp only
      rcases timeHeaderCell_moved h.timeHeader with ⟨r, c, _, _, _, e1, e2⟩ | ⟨e, e1, e2⟩
      · rw [e1, e2, h.alignment, ha]
        dsimp only
        rw [moved_axis]
        exact cleanValue_moved ext h he st (k4.touch _ _) _ _ _ _
      · rw [e1, e2]
        exact ⟨rfl, k4⟩

theorem cleanLoop_moved (ext : Ext) {D : Int → Int → Prop} {al : Align} {dr dc : Int} {sp sp' : SParams}
    (h : Moved al dr dc sp sp') (he : hasEnd sp' = hasEnd sp) :
    ∀ (ps : List Int) (st : CState) {s t : Sheet} (reached : Option Int), AlikeAt D al dr dc s t →
    (∀ pos ∈ ps, 1 ≤ pos ∧ 1 ≤ pos + along al dr dc ∧ (∀ a ∈ timeCoords sp.timeHeader, LineIn D al a pos) ∧
      ∀ a ∈ timeCoords sp.timeHeader, LineIn D al a (pos + 1)) →
    AlikeAt D al dr dc (cleanLoop ext sp st s reached ps).2
      (cleanLoop ext sp' st t (reached.map (· + along al dr dc)) (ps.map (· + along al dr dc))).2 ∧
    (cleanLoop ext sp' st t (reached.map (· + along al dr dc)) (ps.map (· + along al dr dc))).1 =
      (cleanLoop ext sp st s reached ps).1.map (Option.map (· + along al dr dc))
  | [], _, _, _, _, hst, _ => ⟨hst, rfl⟩
  | pos :: rest, st, s, t, reached, hst, hps => by
    obtain ⟨q1, q2, q3, q4⟩ := hps pos (by simp)
    rw [List.map_cons]
    unfold cleanLoop
    have k := cleanStep_moved ext h he q1 q2 q3 q4 st hst
    revert k
    rcases cleanStep ext sp st s pos with ⟨x, u⟩
    rcases cleanStep ext sp' st t (pos + along al dr dc) with ⟨y, v⟩
    rintro ⟨k1, k2⟩
    dsimp only at k1 k2
    subst k1
    cases y with
    | raise e => exact ⟨k2, rfl⟩
    | stop => exact ⟨k2, rfl⟩
    | next st' =>
      dsimp only
      exact cleanLoop_moved ext h he rest st' (some pos) k2 fun q hq => hps q (by simp [hq])

theorem lastDtUp_moved {D : Int → Int → Prop} {al : Align} {dr dc : Int} {s t : Sheet} (hst : AlikeAt D al dr dc s t)
    (c : Int) : ∀ (n : Nat) (row : Int), (∀ x, row - n < x → x ≤ row → D x c) →
    lastDtUp t (c + dc) n (row + dr) = lastDtUp s c n row + dr
  | 0, _, _ => rfl
  | n + 1, row, h => by
    unfold lastDtUp
    rw [hst.cells row c (h row (by omega) (by omega))]
    split
    · rfl
    · rw [show row + dr - 1 = (row - 1) + dr from by omega]
      exact lastDtUp_moved hst c n (row - 1) fun x h1 h2 => h x (by omega) (by omega)

theorem estimateEnd_moved {D : Int → Int → Prop} {al : Align} {dr dc : Int} {sp sp' : SParams}
    (h : Moved al dr dc sp sp') (o : OnSheet sp) (o' : OnSheet sp') {s t : Sheet} (hst : AlikeAt D al dr dc s t)
    {r c pos : Int} (hpos : sp.dataStarts ≤ pos)
    (hD : ∀ x, sp.dataStarts ≤ x → x ≤ pos → D (axisCell al r c x).1 (axisCell al r c x).2) :
    estimateEnd sp' t (r + dr) (c + dc) (pos + along al dr dc) =
      (estimateEnd sp s r c pos).map (· + along al dr dc) := by
  have ha : sp'.alignment = al := by rw [h.rest]; exact h.alignment
  have h2 : sp'.timeAlignment = sp.timeAlignment := by rw [h.rest]
  have o1 := o.starts
  have o2 := o'.starts
  rw [h.starts] at o2
  have key : ∀ x d : Int, d = along al dr dc →
      (if x + d - sp.timeAlignment ≠ 0 ∧ sp.dataStarts + along al dr dc < x + d - sp.timeAlignment then
        Except.ok (x + d - sp.timeAlignment) else .error Err.assertionError) =
      (if x - sp.timeAlignment ≠ 0 ∧ sp.dataStarts < x - sp.timeAlignment then
        Except.ok (x - sp.timeAlignment) else .error Err.assertionError).map (· + along al dr dc) := by
    intro x d hd
    subst hd
    by_cases hx : x - sp.timeAlignment ≠ 0 ∧ sp.dataStarts < x - sp.timeAlignment
    · rw [if_pos hx, if_pos (by omega)]
      show Except.ok _ = Except.ok (x - sp.timeAlignment + along al dr dc)
      congr 1
      omega
    · rw [if_neg hx, if_neg (by omega)]
      rfl
  unfold estimateEnd
  rw [h.alignment, ha, h2, h.starts]
  cases al with
  | vertical =>
    dsimp only
    rw [show pos + along .vertical dr dc = pos + dr from rfl,
      show pos + dr - (sp.dataStarts + along .vertical dr dc) = pos - sp.dataStarts from by
        show pos + dr - (sp.dataStarts + dr) = _; omega,
      lastDtUp_moved hst c _ _ fun x h1 h2 => hD x (by omega) h2]
    exact key _ dr rfl
  | horizontal =>
    dsimp only
    have hc := hst.cells r pos (hD pos hpos (by omega))
    rw [show t.cells (r + dr) (pos + along .horizontal dr dc) = s.cells r pos from hc]
    split
    · exact key pos _ rfl
    · rfl
  | other =>
    dsimp only
    have hc := hst.cells r pos (hD pos hpos (by omega))
    rw [show t.cells (r + dr) (pos + along .other dr dc) = s.cells r pos from hc]
    split
    · exact key pos _ rfl
    · rfl

theorem scanEnd_moved {D : Int → Int → Prop} {al : Align} {dr dc : Int} {sp sp' : SParams}
    (h : Moved al dr dc sp sp') (o : OnSheet sp) (o' : OnSheet sp') {s t : Sheet} (hst : AlikeAt D al dr dc s t) :
    scanEnd sp' t = scanEnd sp s + along al dr dc := by
  have ha : sp'.alignment = al := by rw [h.rest]; exact h.alignment
  have h1 := o.ends
  have h2 := o'.ends
  rw [h.ends] at h2
  have he := hst.extent
  unfold lastUsed at he
  unfold scanEnd
  rw [h.alignment, ha, h.ends]
  cases hd : sp.dataEnds with
  | none => exact he
  | some e =>
    have k1 := h1 e hd
    have k2 := h2 (e + along al dr dc) (by rw [hd]; rfl)
    dsimp only [Option.map_some]
    rw [if_neg (by omega), if_neg (by omega)]

theorem intRange_shift (a b d : Int) : intRange (a + d) (b + d) = (intRange a b).map (· + d) := by
  unfold intRange
  rw [List.map_map, show b + d - (a + d) = b - a from by omega]
  refine List.map_congr_left fun i _ => ?_
  show a + d + (i : Int) = a + (i : Int) + d
  omega

/-- The end found for a time index that has moved. -/
theorem cleanTimeIndex_moved (ext : Ext) {D : Int → Int → Prop} {al : Align} {dr dc : Int} {sp sp' : SParams}
    (h : Moved1 D al dr dc sp sp') {s t : Sheet} (hst : AlikeAt D al dr dc s t) :
    AlikeAt D al dr dc (cleanTimeIndex ext sp s).2 (cleanTimeIndex ext sp' t).2 ∧
    (cleanTimeIndex ext sp' t).1 = (cleanTimeIndex ext sp s).1.map (· + along al dr dc) ∧
    ∀ stop, (cleanTimeIndex ext sp s).1 = .ok stop → sp.dataStarts < stop := by
  obtain ⟨hm, o, o', hi, hw⟩ := h
  have he := hasEnd_moved hm o o'
  have hacc : ∀ cl : Cleaner, cl.accepts sp' = cl.accepts sp := by
    intro cl
    unfold Cleaner.accepts
    rw [he, hm.rest]
  have ha : sp'.alignment = sp.alignment := by rw [hm.rest]
  have o1 := o.starts
  have o2 := o'.starts
  have hb := hm.starts
  unfold cleanTimeIndex
  simp only [hacc]
  split
  · exact ⟨hst, rfl, fun _ h => by cases h⟩
  · unfold cleanWith
    rw [ha]
    by_cases hal : sp.alignment = .other
    · rw [if_pos hal, if_pos hal]
      exact ⟨hst, rfl, fun _ h => by cases h⟩
    · rw [if_neg hal, if_neg hal, scanEnd_moved hm o o' hst, hb,
        show scanEnd sp s + along al dr dc + 1 = scanEnd sp s + 1 + along al dr dc from by omega, intRange_shift]
      have hlim : ∀ pos, pos < scanEnd sp s + 1 → ∀ h, hi = some h → pos + 1 ≤ h := by
        intro pos hpos h hh
        obtain ⟨e, e1, e2, _⟩ := hw.ends h hh
        have e3 := o.ends e e1
        have e4 : scanEnd sp s = e := by
          unfold scanEnd
          rw [e1]
          dsimp only
          rw [if_neg (by omega)]
        omega
      have hline : ∀ pos, sp.dataStarts ≤ pos → pos < scanEnd sp s + 1 →
          (∀ a ∈ timeCoords sp.timeHeader, LineIn D al a pos) ∧
          ∀ a ∈ timeCoords sp.timeHeader, LineIn D al a (pos + 1) := by
        intro pos h1 h2
        have h3 := hlim pos h2
        exact ⟨fun a ha => hw.line a (by simp [ha]) pos (by omega) (fun h hh => by have := h3 h hh; omega),
          fun a ha => hw.line a (by simp [ha]) (pos + 1) (by omega) h3⟩
      have k := cleanLoop_moved (D := D) ext hm he (intRange sp.dataStarts (scanEnd sp s + 1)) .init none hst (by
        intro pos hpos
        obtain ⟨h1, h2⟩ := mem_intRange.1 hpos
        exact ⟨by omega, by omega, hline pos h1 h2⟩)
      have hvis := fun pos u => cleanLoop_visited (ext := ext) (sp := sp) (intRange sp.dataStarts (scanEnd sp s + 1))
        (st := .init) (s := s) (s' := u) (reached := none) (pos := pos)
      rw [Option.map_none] at k
      revert k hvis
      rcases cleanLoop ext sp .init s none (intRange sp.dataStarts (scanEnd sp s + 1)) with ⟨x, u⟩
      rcases cleanLoop ext sp' .init t none
        ((intRange sp.dataStarts (scanEnd sp s + 1)).map (· + along al dr dc)) with ⟨y, v⟩
      rintro ⟨k1, k2⟩ hvis
      dsimp only at k1 k2
      subst k2
      cases x with
      | error e => exact ⟨k1, rfl, fun _ h => by cases h⟩
      | ok o4 =>
        cases o4 with
        | none => exact ⟨k1, rfl, fun _ h => by cases h⟩
        | some pos =>
          have hpos := (hvis pos u rfl).resolve_left (by simp)
          obtain ⟨p1, p2⟩ := mem_intRange.1 hpos
          dsimp only [Except.map, Option.map_some]
          rcases timeHeaderCell_moved hm.timeHeader with ⟨r, c, a, am, ac, e1, e2⟩ | ⟨e, e1, e2⟩
          · rw [e1, e2]
            dsimp only
            refine ⟨k1, estimateEnd_moved hm o o' k1 p1 fun x hx1 hx2 => ?_, ?_⟩
            · exact (hline x hx1 (by omega)).1 a am r c ac
            · intro stop hs
              unfold estimateEnd at hs
              split at hs
              · dsimp only at hs
                split at hs
                · cases hs
                  omega
                · cases hs
              · split at hs
                · dsimp only at hs
                  split at hs
                  · cases hs
                    omega
                  · cases hs
                · cases hs
          · rw [e1, e2]
            exact ⟨k1, rfl, fun _ h => by cases h⟩

end Xls
