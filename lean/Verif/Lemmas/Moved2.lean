/-
All time indexes of a table that stands elsewhere on a worksheet, and its extraction.
-/
import Verif.Lemmas.Moved
import Verif.Lemmas.Again2

set_option autoImplicit false

namespace Xls

open Spec

/-! ### All time indexes -/

/-- Ends found for corresponding headers. -/
def EndsMoved (al : Align) (dr dc : Int) (ends ends' : List (Str × Int)) : Prop :=
  List.Forall₂ (fun a b => MovedCell dr dc a.1 b.1 ∧ b.2 = a.2 + along al dr dc ∧ 1 ≤ a.2 ∧ 1 ≤ b.2) ends ends'

theorem endOf_moved {al : Align} {dr dc : Int} {ends ends' : List (Str × Int)} (h : EndsMoved al dr dc ends ends')
    {a b : Str} (hab : MovedCell dr dc a b) :
    endOf ends' b = (endOf ends a).map (· + along al dr dc) ∧
      ∀ stop, endOf ends a = some stop → 1 ≤ stop ∧ 1 ≤ stop + along al dr dc := by
  unfold endOf
  induction h with
  | nil => exact ⟨rfl, fun _ h => by cases h⟩
  | @cons x y xs ys hxy _ ih =>
    rw [List.find?_cons, List.find?_cons]
    by_cases hx : x.1 = a
    · have hy : y.1 = b := (hxy.1.eq_iff hab).1 hx
      simp only [hx, hy, decide_true, Option.map_some, hxy.2.1]
      refine ⟨True.intro, fun stop hs => ?_⟩
      cases hs
      have := hxy.2
      omega
    · have hy : ¬ y.1 = b := fun e => hx ((hxy.1.eq_iff hab).2 e)
      simp only [hx, hy, decide_false]
      exact ih

theorem cleanOnce_moved (ext : Ext) {D : Int → Int → Prop} {al : Align} {dr dc : Int} {p p' : Params} {i : Nat}
    {sp sp' : SParams} (h1 : p.typed i = .ok sp) (h2 : p'.typed i = .ok sp') (h : Moved1 D al dr dc sp sp')
    {a b : Str} (hab : MovedCell dr dc a b) {ends ends' : List (Str × Int)} (he : EndsMoved al dr dc ends ends')
    {s t : Sheet} (hst : AlikeAt D al dr dc s t) :
    AlikeAt D al dr dc (cleanOnce ext p s ends i a).2 (cleanOnce ext p' t ends' i b).2 ∧
    ((∃ e, (cleanOnce ext p s ends i a).1 = .error e ∧ (cleanOnce ext p' t ends' i b).1 = .error e) ∨
      ∃ stop e1 e1', (cleanOnce ext p s ends i a).1 = .ok (stop, e1) ∧
        (cleanOnce ext p' t ends' i b).1 = .ok (stop + along al dr dc, e1') ∧ EndsMoved al dr dc e1 e1' ∧
        1 ≤ stop ∧ 1 ≤ stop + along al dr dc) := by
  obtain ⟨k1, k2⟩ := endOf_moved he hab
  unfold cleanOnce
  rw [k1]
  cases hend : endOf ends a with
  | some stop => exact ⟨hst, .inr ⟨_, _, _, rfl, rfl, he, k2 stop hend⟩⟩
  | none =>
    dsimp only [Option.map_none]
    rw [h1, h2]
    dsimp only
    have o1 := h.on.starts
    have o2 := h.on'.starts
    rw [h.moved.starts] at o2
    obtain ⟨k1, k2, k3⟩ := cleanTimeIndex_moved ext h hst
    revert k1 k2 k3
    rcases cleanTimeIndex ext sp s with ⟨x, u⟩
    rcases cleanTimeIndex ext sp' t with ⟨y, v⟩
    intro k1 k2 k3
    dsimp only at k1 k2 k3
    subst k2
    cases x with
    | error e => exact ⟨k1, .inl ⟨e, rfl, rfl⟩⟩
    | ok stop =>
      have := k3 stop rfl
      dsimp only [Except.map]
      rw [if_neg (by omega), if_neg (by omega)]
      exact ⟨k1, .inr ⟨_, _, _, rfl, rfl, List.rel_append he (.cons ⟨hab, rfl, by dsimp only; omega, by dsimp only; omega⟩ .nil),
        by omega, by omega⟩⟩

/-- The series with other ends. -/
theorem Spec.Moved.ending {al : Align} {dr dc : Int} {sp sp' : SParams} (h : Moved al dr dc sp sp') (e : Int) :
    Moved al dr dc { sp with dataEnds := some e } { sp' with dataEnds := some (e + along al dr dc) } := by
  refine ⟨h.alignment, h.header, h.composed, h.timeHeader, h.starts, rfl, ?_⟩
  have := h.rest
  dsimp only
  rw [this]

theorem Moved1.ending {D : Int → Int → Prop} {al : Align} {dr dc : Int} {sp sp' : SParams}
    (h : Moved1 D al dr dc sp sp') (hw : WithinAt D al none sp) {e : Int} (h1 : 1 ≤ e) (h2 : 1 ≤ e + along al dr dc) :
    Moved1 D al dr dc { sp with dataEnds := some e } { sp' with dataEnds := some (e + along al dr dc) } := by
  refine ⟨h.moved.ending e, ⟨h.on.starts, h.on.dates, ?_⟩, ⟨h.on'.starts, h.on'.dates, ?_⟩, none, hw.head, hw.line, ?_⟩
  · intro x hx
    cases hx
    exact h1
  · intro x hx
    cases hx
    exact h2
  · intro x hx
    cases hx

theorem Moved1.endingAt {D : Int → Int → Prop} {al : Align} {dr dc : Int} {sp sp' : SParams}
    (h : Moved1 D al dr dc sp sp') {e : Int} (h1 : 1 ≤ e) (h2 : 1 ≤ e + along al dr dc) :
    Moved1 D al dr dc (endingAt e sp) (endingAt (e + along al dr dc) sp') := by
  have he := hasEnd_moved h.moved h.on h.on'
  cases hh : hasEnd sp with
  | true =>
    rw [endingAt_of_hasEnd hh, endingAt_of_hasEnd (he.trans hh)]
    exact h
  | false =>
    rw [endingAt_of_not hh, endingAt_of_not (he.trans hh)]
    obtain ⟨hi, hw⟩ := h.within
    refine h.ending ?_ h1 h2
    cases hi with
    | none => exact hw
    | some x =>
      obtain ⟨y, hy, _⟩ := hw.ends x rfl
      have := h.on.ends y hy
      unfold hasEnd at hh
      rw [hy] at hh
      simp at hh
      omega

theorem rawEnds_moved {al : Align} {dr dc : Int} {sp sp' : SParams} (h : Moved al dr dc sp sp') (o : OnSheet sp)
    (o' : OnSheet sp') : (rawValue sp' .dataEnds).truthy = (rawValue sp .dataEnds).truthy := by
  have htr : ∀ sp : SParams, (rawValue sp .dataEnds).truthy = hasEnd sp := by
    intro sp
    show PVal.truthy (sp.dataEnds.elim .none .int) = _
    unfold hasEnd
    cases sp.dataEnds <;> rfl
  rw [htr, htr]
  exact hasEnd_moved h o o'

/-- Corresponding outcomes of a cleaning. -/
def SameCleaned (D : Int → Int → Prop) (al : Align) (dr dc : Int) (r r' : Except Err Unit × Params × Sheet) : Prop :=
  r'.1 = r.1 ∧ AlikeAt D al dr dc r.2.2 r'.2.2 ∧
    (r.1 = .ok () → ∃ sps sps', HasSeries r.2.1 sps ∧ HasSeries r'.2.1 sps' ∧
      List.Forall₂ (Moved1 D al dr dc) sps sps')

theorem cleanSeries_moved (ext : Ext) {D : Int → Int → Prop} {al : Align} {dr dc : Int} :
    ∀ {rest rest' : List SParams}, List.Forall₂ (Moved1 D al dr dc) rest rest' →
    ∀ {pre pre' : List SParams} {p p' : Params} {s t : Sheet} {ends ends' : List (Str × Int)},
    List.Forall₂ (Moved1 D al dr dc) pre pre' → HasSeries p (pre ++ rest) → HasSeries p' (pre' ++ rest') →
    EndsMoved al dr dc ends ends' → AlikeAt D al dr dc s t →
    SameCleaned D al dr dc (cleanSeries ext (List.range' pre.length rest.length) p s ends)
      (cleanSeries ext (List.range' pre.length rest.length) p' t ends') := by
  intro rest rest' hr
  induction hr with
  | nil =>
    intro pre pre' p p' s t ends ends' hpre hp hp' _ hst
    rw [List.append_nil] at hp hp'
    exact ⟨rfl, hst, fun _ => ⟨pre, pre', hp, hp', hpre⟩⟩
  | @cons sp sp' rest rest' hsp hrest ih =>
    intro pre pre' p p' s t ends ends' hpre hp hp' he hst
    have hlen : pre'.length = pre.length := hpre.length_eq.symm
    have hi : (pre ++ sp :: rest)[pre.length]? = some sp := by simp
    have hi' : (pre' ++ sp' :: rest')[pre.length]? = some sp' := by rw [← hlen]; simp
    rw [List.length_cons, List.range'_succ]
    unfold cleanSeries
    have hth := hsp.moved.timeHeader
    obtain ⟨th, e1⟩ : ∃ th, sp.timeHeader = th := ⟨_, rfl⟩
    obtain ⟨th', e2⟩ : ∃ th, sp'.timeHeader = th := ⟨_, rfl⟩
    rw [e1, e2] at hth
    cases hth with
    | multi _ =>
      rw [header_of_multi hp hi e1, header_of_multi hp' hi' e2]
      exact ⟨rfl, hst, fun h => by cases h⟩
    | @single a b hab =>
      rw [header_of_series hp hi e1, header_of_series hp' hi' e2]
      dsimp only
      have hone := cleanOnce_moved ext (typed_of_series hp hi) (typed_of_series hp' hi') hsp hab he hst
      revert hone
      rcases cleanOnce ext p s ends pre.length a with ⟨x, u⟩
      rcases cleanOnce ext p' t ends' pre.length b with ⟨y, v⟩
      rintro ⟨hone, h3⟩
      dsimp only at hone h3
      rcases h3 with ⟨e, rfl, rfl⟩ | ⟨stop, k, k', rfl, rfl, hk, q1, q2⟩
      · exact ⟨rfl, hone, fun h => by cases h⟩
      · dsimp only
        rw [index_of_series hp .dataEnds hi, index_of_series hp' .dataEnds hi']
        dsimp only
        have h3 := setEnd_series stop hp
        have h3' := setEnd_series (stop + along al dr dc) hp'
        rw [hlen] at h3'
        have := ih (pre := pre ++ [endingAt stop sp]) (pre' := pre' ++ [endingAt (stop + along al dr dc) sp'])
          (List.rel_append hpre (.cons (hsp.endingAt q1 q2) .nil))
          (by rw [List.append_assoc]; exact h3) (by rw [List.append_assoc]; exact h3') hk hone
        rw [List.length_append, List.length_singleton] at this
        exact this

theorem cleanData_moved (ext : Ext) {D : Int → Int → Prop} {al : Align} {dr dc : Int} {p p' : Params} {s t : Sheet}
    {sps sps' : List SParams} (h : List.Forall₂ (Moved1 D al dr dc) sps sps') (hp : HasSeries p sps)
    (hp' : HasSeries p' sps') (hall : (∀ sp ∈ sps, EndGiven sp) ∨ ∀ sp ∈ sps, WithinAt D al none sp)
    (hst : AlikeAt D al dr dc s t) :
    SameCleaned D al dr dc (cleanData ext p s) (cleanData ext p' t) := by
  unfold cleanData
  cases h with
  | nil =>
    have e : Params.index (p .timeMulticolumn) 0 = .error .indexError := by rw [hp]; rfl
    have e' : Params.index (p' .timeMulticolumn) 0 = .error .indexError := by rw [hp']; rfl
    rw [e, e']
    exact ⟨rfl, hst, fun h => by cases h⟩
  | @cons sp sp' rest rest' hsp hrest =>
    have hi : (sp :: rest)[0]? = some sp := rfl
    have hi' : (sp' :: rest')[0]? = some sp' := rfl
    rw [index_of_series hp .timeMulticolumn hi, index_of_series hp' .timeMulticolumn hi',
      show rawValue sp' .timeMulticolumn = rawValue sp .timeMulticolumn from by rw [hsp.moved.rest]; rfl]
    dsimp only
    split
    · unfold cleanMulti
      rw [typed_of_series hp hi, typed_of_series hp' hi', index_of_series hp .dataEnds hi,
        index_of_series hp' .dataEnds hi']
      dsimp only
      rw [rawEnds_moved hsp.moved hsp.on hsp.on']
      have o1 := hsp.on.starts
      have o2 := hsp.on'.starts
      rw [hsp.moved.starts] at o2
      obtain ⟨k1, k2, k3⟩ := cleanTimeIndex_moved ext hsp hst
      revert k1 k2 k3
      rcases cleanTimeIndex ext sp s with ⟨x, u⟩
      rcases cleanTimeIndex ext sp' t with ⟨y, v⟩
      intro k1 k2 k3
      dsimp only at k1 k2 k3
      subst k2
      cases x with
      | error e => exact ⟨rfl, k1, fun h => by cases h⟩
      | ok stop =>
        have := k3 stop rfl
        dsimp only [Except.map]
        split
        · exact ⟨rfl, k1, fun _ => ⟨_, _, hp, hp', .cons hsp hrest⟩⟩
        · next hv =>
          have hall2 : ∀ sq ∈ sp :: rest, WithinAt D al none sq := by
            refine hall.resolve_left fun hg => ?_
            have := hg sp (by simp)
            apply hv
            show PVal.truthy (sp.dataEnds.elim .none .int) = true
            unfold EndGiven at this
            cases hd : sp.dataEnds with
            | none => exact absurd hd this.1
            | some e =>
              have : e ≠ 0 := fun h0 => this.2 (by rw [hd, h0])
              simp [PVal.truthy, this]
          obtain ⟨q, hq⟩ := setItem_ends hp stop
          obtain ⟨q', hq'⟩ := setItem_ends hp' (stop + along al dr dc)
          rw [hq, hq']
          refine ⟨rfl, k1, fun _ => ⟨_, _, setItem_dataEnds hp (by simp) stop hq,
            setItem_dataEnds hp' (by simp) _ hq', ?_⟩⟩
          rw [List.forall₂_map_left_iff, List.forall₂_map_right_iff]
          have hb := List.Forall₂.cons hsp hrest
          rw [List.forall₂_iff_get] at hb ⊢
          refine ⟨hb.1, fun i h1 h2 => (hb.2 i h1 h2).ending (hall2 _ (List.get_mem _ _)) (by omega) (by omega)⟩
    · have e : Params.len (p .timeHeaderCoord) = .ok (sp :: rest).length := by
        rw [hp]; unfold Params.len; simp
      have e' : Params.len (p' .timeHeaderCoord) = .ok (sp :: rest).length := by
        rw [hp', ← (List.Forall₂.cons hsp hrest).length_eq.symm]; unfold Params.len; simp
      rw [e, e']
      dsimp only
      rw [List.range_eq_range']
      exact cleanSeries_moved ext (.cons hsp hrest) (pre := []) (pre' := []) .nil hp hp' .nil hst

/-! ### Period ranges -/

/-- Cells and where they have moved to. -/
def movedAll (dr dc : Int) (l : List (Int × Int)) : List (Int × Int) := l.map fun rc => (rc.1 + dr, rc.2 + dc)

theorem AlikeAt.touchAll {D : Int → Int → Prop} {al : Align} {dr dc : Int} : ∀ (l : List (Int × Int)) {s t : Sheet},
    AlikeAt D al dr dc s t → AlikeAt D al dr dc (s.touchAll l) (t.touchAll (movedAll dr dc l))
  | [], _, _, h => h
  | rc :: l, _, _, h => AlikeAt.touchAll l (h.touch rc.1 rc.2)

theorem AlikeAt.read {D : Int → Int → Prop} {al : Align} {dr dc : Int} {s t : Sheet} (h : AlikeAt D al dr dc s t)
    {hr hc pos : Int} (p1 : 1 ≤ hr) (p2 : 1 ≤ hc) (p3 : 1 ≤ hr + dr) (p4 : 1 ≤ hc + dc) (h1 : 1 ≤ pos)
    (h2 : 1 ≤ pos + along al dr dc) (hD : D (axisCell al hr hc pos).1 (axisCell al hr hc pos).2) :
    t.read (axisCell al (hr + dr) (hc + dc) (pos + along al dr dc)).1
        (axisCell al (hr + dr) (hc + dc) (pos + along al dr dc)).2 =
      s.read (axisCell al hr hc pos).1 (axisCell al hr hc pos).2 := by
  unfold Sheet.read
  rw [if_pos (axis_exists p3 p4 h2), if_pos (axis_exists p1 p2 h1), moved_axis]
  dsimp only
  rw [h.cells _ _ hD]

theorem singleRanges_moved (ext : Ext) {D : Int → Int → Prop} {al : Align} {dr dc : Int} {s t : Sheet}
    (hst : AlikeAt D al dr dc s t) {a b : Str} (h : MovedCell dr dc a b) (freq : Str) {ini stop ta : Int}
    (h1 : 1 ≤ ini + ta) (h2 : 1 ≤ ini + ta + along al dr dc) (hlt : ini < stop) (hD : LineIn D al a (ini + ta))
    (hD' : LineIn D al a (stop + ta)) :
    singleRanges ext t freq (ini + along al dr dc) b (stop + along al dr dc) ta al =
      singleRanges ext s freq ini a stop ta al := by
  obtain ⟨r, c, e1, e2, p1, p2, p3, p4⟩ := h.coords
  unfold singleRanges
  split
  · rfl
  · rw [e1, e2]
    dsimp only
    rw [show ini + along al dr dc + ta = ini + ta + along al dr dc from by omega,
      show stop + along al dr dc + ta = stop + ta + along al dr dc from by omega,
      hst.read p1 p2 p3 p4 h1 h2 (hD r c e1),
      hst.read p1 p2 p3 p4 (by omega) (by omega) (hD' r c e1)]

theorem intRange_take (a b : Int) (k : Nat) : (intRange a b).take k = intRange a (min (a + k) b) := by
  unfold intRange
  rw [← List.map_take, List.take_range]
  congr 2
  omega

theorem intRange_drop (a b : Int) (k : Nat) : (intRange a b).drop k = intRange (a + k) b := by
  unfold intRange
  rw [← List.map_drop]
  refine List.ext_getElem (by simp; omega) fun i h1 h2 => ?_
  simp
  omega

theorem timeLine_slice (s : Sheet) (al : Align) (hr hc : Int) {i j : Int} (hi : 0 ≤ i) (hj : 0 ≤ j) :
    pySlice (timeLine s al hr hc) i j =
      (intRange (i + 1) (min j (lastUsed al (s.touch hr hc)) + 1)).map fun k =>
        s.cells (axisCell al hr hc k).1 (axisCell al hr hc k).2 := by
  unfold pySlice timeLine
  dsimp only
  rw [if_neg (by omega), if_neg (by omega), ← List.map_take, ← List.map_drop, intRange_take, intRange_drop]
  show List.map (fun i => s.cells (axisCell al hr hc i).1 (axisCell al hr hc i).2) _ = _
  congr 2
  · omega
  · show min (1 + (j.toNat : Int)) ((if al = .vertical then (s.touch hr hc).maxRow else (s.touch hr hc).maxCol) + 1) = _
    unfold lastUsed
    omega

theorem slice_moved {D : Int → Int → Prop} {al : Align} {dr dc : Int} {s t : Sheet} (hst : AlikeAt D al dr dc s t)
    {a : Str} {r c : Int} (e1 : coordOf a = .ok (r, c)) {i j : Int} (hi : 0 ≤ i)
    (hi' : 0 ≤ i + along al dr dc) (hj : 0 ≤ j) (hj' : 0 ≤ j + along al dr dc)
    (hD : ∀ pos, i + 1 ≤ pos → LineIn D al a pos) :
    pySlice (timeLine t al (r + dr) (c + dc)) (i + along al dr dc) (j + along al dr dc) =
      pySlice (timeLine s al r c) i j := by
  rw [timeLine_slice s al r c hi hj, timeLine_slice t al _ _ hi' hj', (hst.touch r c).extent,
    show i + along al dr dc + 1 = i + 1 + along al dr dc from by omega,
    show min (j + along al dr dc) (lastUsed al (s.touch r c) + along al dr dc) + 1 =
      min j (lastUsed al (s.touch r c)) + 1 + along al dr dc from by omega, intRange_shift, List.map_map]
  refine List.map_congr_left fun k hk => ?_
  obtain ⟨k1, _⟩ := mem_intRange.1 hk
  show t.cells (axisCell al (r + dr) (c + dc) (k + along al dr dc)).1
    (axisCell al (r + dr) (c + dc) (k + along al dr dc)).2 = _
  rw [moved_axis]
  exact hst.cells _ _ (hD k k1 r c e1)

theorem multiRanges_moved (ext : Ext) {D : Int → Int → Prop} {al : Align} {dr dc : Int} {s t : Sheet}
    (hst : AlikeAt D al dr dc s t) {a b : Str} (h : MovedCell dr dc a b) {freq : Str} {ini stop : Int}
    (h1 : 1 ≤ ini) (h2 : 1 ≤ ini + along al dr dc) (hlt : ini < stop) (hf : 1 < freq.length)
    (hcyc : al ≠ .vertical → ini + freq.length ≤ stop + 1) (hD : ∀ pos, ini ≤ pos → LineIn D al a pos) :
    multiRanges ext t freq (ini + along al dr dc) b (stop + along al dr dc) al =
      multiRanges ext s freq ini a stop al := by
  obtain ⟨r, c, e1, e2, p1, p2, p3, p4⟩ := h.coords
  have hfe : freqEnd (ini + along al dr dc) (stop + along al dr dc) freq.length = freqEnd ini stop freq.length := by
    unfold freqEnd
    rw [show stop + along al dr dc - (ini + along al dr dc) + 1 = stop - ini + 1 from by omega]
  have hle : (freqEnd ini stop freq.length : Int) ≤ stop - ini + 1 := by
    unfold freqEnd
    dsimp only
    have hp : (0 : Int) < freq.length := by omega
    have hm := Int.emod_add_mul_ediv (stop - ini + 1) freq.length
    have hnn := Int.emod_nonneg (stop - ini + 1) (by omega : (freq.length : Int) ≠ 0)
    have hd : 0 ≤ (stop - ini + 1) / (freq.length : Int) := Int.ediv_nonneg (by omega) (by omega)
    split
    · next h0 =>
      have hz : (stop - ini + 1) % (freq.length : Int) = 0 := by omega
      exact Int.le_of_dvd (by omega) (Int.dvd_of_emod_eq_zero hz)
    · have : 0 ≤ (freq.length : Int) * ((stop - ini + 1) / (freq.length : Int)) := Int.mul_nonneg (by omega) hd
      omega
  unfold multiRanges
  split
  · rfl
  · rw [e1, e2]
    dsimp only
    have hs : startPairs (timeLine t al (r + dr) (c + dc)) freq (ini + along al dr dc) =
        startPairs (timeLine s al r c) freq ini := by
      unfold startPairs
      rw [show ini + along al dr dc - 1 = ini - 1 + along al dr dc from by omega,
        show ini + along al dr dc + (freq.length : Int) - 1 = ini + freq.length - 1 + along al dr dc from by omega,
        slice_moved hst e1 (by omega) (by omega) (by omega) (by omega) fun pos hp => hD pos (by omega)]
    have he : endPairs (timeLine t al (r + dr) (c + dc)) freq (ini + along al dr dc) (stop + along al dr dc) al =
        endPairs (timeLine s al r c) freq ini stop al := by
      unfold endPairs
      dsimp only
      rw [hfe]
      by_cases hv : al = .vertical
      · rw [if_pos hv, if_pos hv,
          show stop + along al dr dc - (freqEnd ini stop freq.length : Int) =
            stop - freqEnd ini stop freq.length + along al dr dc from by omega,
          slice_moved hst e1 (by omega) (by omega) (by omega) (by omega) fun pos hp => hD pos (by omega)]
      · have := hcyc hv
        rw [if_neg hv, if_neg hv,
          show stop + along al dr dc - (freq.length : Int) = stop - freq.length + along al dr dc from by omega,
          slice_moved hst e1 (by omega) (by omega) (by omega) (by omega) fun pos hp => hD pos (by omega)]
    rw [hs, he]

/-- A series of the table with its end known, that has a whole cycle of frequencies if that matters. -/
structure Ready (D : Int → Int → Prop) (al : Align) (dr dc : Int) (sp sp' : SParams) : Prop
    extends Moved1 D al dr dc sp sp' where
  cycle : FullCycle sp

theorem seriesRanges_moved (ext : Ext) {D : Int → Int → Prop} {al : Align} {dr dc : Int} {s t : Sheet}
    (hst : AlikeAt D al dr dc s t) {sp sp' : SParams} (h : Ready D al dr dc sp sp') {a b : Str}
    (ha : a ∈ timeCoords sp.timeHeader) (hab : MovedCell dr dc a b) {stop : Int} (hs : sp.dataEnds = some stop)
    (hlt : sp.dataStarts < stop) :
    seriesRanges ext t sp.frequency (sp.dataStarts + along al dr dc) b (stop + along al dr dc) sp.timeAlignment al =
      seriesRanges ext s sp.frequency sp.dataStarts a stop sp.timeAlignment al := by
  obtain ⟨hi, hw⟩ := h.within
  have hta : sp'.timeAlignment = sp.timeAlignment := by rw [h.moved.rest]
  have o1 := h.on.starts
  have o2 := h.on'.starts
  have o3 := h.on.dates
  have o4 := h.on'.dates
  rw [h.moved.starts] at o2 o4
  rw [hta] at o4
  unfold seriesRanges
  split
  · refine singleRanges_moved ext hst hab _ o3 (by omega) hlt ?_ ?_
    · refine hw.line a (by simp [ha]) _ (by omega) fun x hx => ?_
      obtain ⟨e, k1, k2, k3, _⟩ := hw.ends x hx
      rw [hs] at k1
      cases k1
      omega
    · refine hw.line a (by simp [ha]) _ (by omega) fun x hx => ?_
      obtain ⟨e, k1, k2, k3, _⟩ := hw.ends x hx
      rw [hs] at k1
      cases k1
      omega
  · split
    · next hn hf =>
      refine multiRanges_moved ext hst hab o1 o2 hlt hf (fun hv => ?_) fun pos hp => ?_
      · exact h.cycle (by rw [h.moved.alignment]; exact hv) hf stop hs
      · refine hw.line a (by simp [ha]) _ (by omega) fun x hx => ?_
        obtain ⟨e, k1, k2, k3, k4⟩ := hw.ends x hx
        exact absurd k4 hn
    · rfl

theorem rangeReads_moved {al : Align} {dr dc : Int} {a b : Str} (h : MovedCell dr dc a b) (freq : Str)
    (ini stop ta : Int) :
    rangeReads freq (ini + along al dr dc) b (stop + along al dr dc) ta al =
      movedAll dr dc (rangeReads freq ini a stop ta al) := by
  obtain ⟨r, c, e1, e2, _⟩ := h.coords
  unfold rangeReads
  rw [e1, e2]
  dsimp only
  split
  · rw [show ini + along al dr dc + ta = ini + ta + along al dr dc from by omega,
      show stop + along al dr dc + ta = stop + ta + along al dr dc from by omega, moved_axis, moved_axis]
    rfl
  · rfl

theorem singleHeader_moved {dr dc : Int} {th th' : TimeHeader} (h : MovedHeader dr dc th th') (first : Bool) :
    (∃ e, singleHeader first th = .error e ∧ singleHeader first th' = .error e) ∨
      ∃ a b, singleHeader first th = .ok a ∧ singleHeader first th' = .ok b ∧ MovedCell dr dc a b ∧
        a ∈ timeCoords th := by
  cases h with
  | single h => exact .inr ⟨_, _, rfl, rfl, h, by simp [timeCoords]⟩
  | multi h =>
    cases h with
    | nil => cases first <;> exact .inl ⟨_, rfl, rfl⟩
    | cons h _ =>
      cases first with
      | false => exact .inl ⟨_, rfl, rfl⟩
      | true => exact .inr ⟨_, _, rfl, rfl, h, by simp [timeCoords]⟩

/-- Corresponding outcomes of a step of the extraction. -/
def SameStepOn {α : Type} (D : Int → Int → Prop) (al : Align) (dr dc : Int) (r r' : Except Err (α × Sheet)) : Prop :=
  (∃ e, r = .error e ∧ r' = .error e) ∨ ∃ x u v, r = .ok (x, u) ∧ r' = .ok (x, v) ∧ AlikeAt D al dr dc u v

/-- The series ends after it starts. -/
def Long (sp : SParams) : Prop := ∃ e, sp.dataEnds = some e ∧ sp.dataStarts < e

theorem rangesOfArgs_moved (ext : Ext) {D : Int → Int → Prop} {al : Align} {dr dc : Int} {p p' : Params}
    (hm : p' .timeMulticolumn = p .timeMulticolumn) {s t : Sheet} (hst : AlikeAt D al dr dc s t) {sp sp' : SParams}
    (h : Ready D al dr dc sp sp') :
    (∃ e, rangesOfArgs ext p s (argsOf sp) = .error e ∧ rangesOfArgs ext p' t (argsOf sp') = .error e) ∨
      ∃ prs reads, rangesOfArgs ext p s (argsOf sp) = .ok (prs, reads) ∧
        rangesOfArgs ext p' t (argsOf sp') = .ok (prs, movedAll dr dc reads) ∧ Long sp := by
  have e3 : rawValue sp' .frequency = .str sp.frequency := by rw [h.moved.rest]; rfl
  have e4 : rawValue sp' .timeAlignment = .int sp.timeAlignment := by rw [h.moved.rest]; rfl
  have eraw : ∀ sp : SParams, orNone PVal.asInt (rawValue sp .dataEnds) = .ok sp.dataEnds := by
    intro sp
    show orNone PVal.asInt (sp.dataEnds.elim PVal.none PVal.int) = _
    cases sp.dataEnds <;> rfl
  have e6 : ∀ sp : SParams, (rawValue sp .dataStarts).asInt = .ok sp.dataStarts := fun _ => rfl
  have o1 := h.on.starts
  have o2 := h.on'.starts
  have o3 := h.moved.starts
  unfold rangesOfArgs argsOf
  dsimp only
  rw [e3, e4, show rawValue sp .frequency = .str sp.frequency from rfl,
    show rawValue sp .timeAlignment = .int sp.timeAlignment from rfl, asAlign_raw, asAlign_raw, h.align.1, h.align.2,
    asHeader_raw, asHeader_raw, hm, eraw, eraw, e6, e6, h.moved.ends, h.moved.starts]
  rw [bind_intro rfl, bind_intro rfl, bind_intro rfl, bind_intro rfl]
  cases hs : sp.dataEnds with
  | none => exact .inl ⟨_, rfl, rfl⟩
  | some stop =>
    dsimp only [Option.map_some]
    by_cases h0 : stop ≤ sp.dataStarts
    · rw [if_pos (.inr h0), if_pos (.inr (by omega))]
      exact .inl ⟨_, rfl, rfl⟩
    · rw [if_neg (by omega), if_neg (by omega), bind_intro rfl, bind_intro rfl]
      rcases singleHeader_moved h.moved.timeHeader (p .timeMulticolumn).truthy with ⟨e, k1, k2⟩ | ⟨a, b, k1, k2, hab, ha⟩
      · rw [k1, k2]
        exact .inl ⟨_, rfl, rfl⟩
      · rw [k1, k2, bind_intro rfl, bind_intro rfl,
          bind_intro (show (PVal.str sp.frequency).asStr = .ok sp.frequency from rfl),
          bind_intro (show (PVal.str sp.frequency).asStr = .ok sp.frequency from rfl),
          bind_intro (show (PVal.int sp.timeAlignment).asInt = .ok sp.timeAlignment from rfl),
          bind_intro (show (PVal.int sp.timeAlignment).asInt = .ok sp.timeAlignment from rfl),
          seriesRanges_moved ext hst h ha hab hs (by omega)]
        cases seriesRanges ext s sp.frequency sp.dataStarts a stop sp.timeAlignment al with
        | error e => exact .inl ⟨_, rfl, rfl⟩
        | ok prs => exact .inr ⟨prs, _, rfl, by rw [rangeReads_moved hab]; rfl, stop, hs, by omega⟩

theorem bucketLoop_moved (ext : Ext) {D : Int → Int → Prop} {al : Align} {dr dc : Int} {p p' : Params}
    (hm : p' .timeMulticolumn = p .timeMulticolumn) {sps sps' : List SParams}
    (h : List.Forall₂ (Ready D al dr dc) sps sps') : ∀ {s t : Sheet} (bs : List Bucket), AlikeAt D al dr dc s t →
    SameStepOn D al dr dc (bucketLoop ext p (sps.map argsOf) s bs) (bucketLoop ext p' (sps'.map argsOf) t bs) ∧
      ∀ r, bucketLoop ext p (sps.map argsOf) s bs = .ok r → ∀ sp ∈ sps, Long sp := by
  induction h with
  | nil => intro s t bs hst; exact ⟨.inr ⟨_, _, _, rfl, rfl, hst⟩, fun _ _ _ h => by cases h⟩
  | @cons sp sp' rest rest' hsp _ ih =>
    intro s t bs hst
    rw [List.map_cons, List.map_cons]
    unfold bucketLoop
    rcases rangesOfArgs_moved ext hm hst hsp with ⟨e, k1, k2⟩ | ⟨prs, reads, k1, k2, hl⟩
    · rw [k1, k2]
      exact ⟨.inl ⟨_, rfl, rfl⟩, fun _ h => by cases h⟩
    · rw [k1, k2]
      dsimp only
      cases addBuckets bs prs with
      | error e => exact ⟨.inl ⟨_, rfl, rfl⟩, fun _ h => by cases h⟩
      | ok bs' =>
        dsimp only
        obtain ⟨j1, j2⟩ := ih bs' (AlikeAt.touchAll reads hst)
        refine ⟨j1, fun r hr sq hsq => ?_⟩
        rcases List.mem_cons.1 hsq with rfl | hsq
        · exact hl
        · exact j2 r hr sq hsq

end Xls
