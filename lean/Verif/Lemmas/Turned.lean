/-
Cleaning and extraction on a worksheet with rows and columns exchanged.
-/
import Verif.Spec.Turned
import Verif.Lemmas.Coords
import Verif.Lemmas.Usable

set_option autoImplicit false

namespace Xls

open Spec

/-! ### Cells -/

theorem turned_touch (s : Sheet) (r c : Int) : turned (s.touch r c) = (turned s).touch c r := rfl

theorem turned_set (s : Sheet) (r c : Int) (v : Cell) : turned (s.set r c v) = (turned s).set c r v := by
  unfold turned Sheet.set Sheet.touch
  dsimp only
  congr 1
  funext r' c'
  simp only [and_comm]

theorem turned_axis (hr hc pos : Int) :
    axisCell .horizontal hc hr pos = ((axisCell .vertical hr hc pos).2, (axisCell .vertical hr hc pos).1) := rfl

theorem Spec.TurnedCell.coords {a b : Str} (h : TurnedCell a b) :
    ∃ r c : Int, coordOf a = .ok (r, c) ∧ coordOf b = .ok (c, r) := by
  obtain ⟨r, c, h1, h2, rfl, rfl⟩ := h
  exact ⟨r, c, coordOf_coordStr h1 h2, coordOf_coordStr h2 h1⟩

theorem Spec.TurnedCell.eq_iff {a b a' b' : Str} (h : TurnedCell a b) (h' : TurnedCell a' b') :
    a = a' ↔ b = b' := by
  obtain ⟨r, c, h1, h2, rfl, rfl⟩ := h
  obtain ⟨r', c', h1', h2', rfl, rfl⟩ := h'
  constructor
  · intro e
    obtain ⟨rfl, rfl⟩ := coordStr_inj h1 h2 h1' h2' e
    rfl
  · intro e
    obtain ⟨rfl, rfl⟩ := coordStr_inj h2 h1 h2' h1' e
    rfl

/-! ### One time value -/

theorem multiParts_turned (ext : Ext) (pos : Int) {as bs : List Str} (h : List.Forall₂ TurnedCell as bs) :
    ∀ s : Sheet, multiParts ext .horizontal pos (turned s) bs =
      ((multiParts ext .vertical pos s as).1, turned (multiParts ext .vertical pos s as).2) := by
  induction h with
  | nil => intro s; rfl
  | @cons a b as bs hab _ ih =>
    intro s
    obtain ⟨r, c, e1, e2⟩ := hab.coords
    unfold multiParts
    rw [e1, e2]
    dsimp only
    rw [turned_axis]
    dsimp only
    by_cases hp : 1 ≤ (axisCell .vertical r c pos).1 ∧ 1 ≤ (axisCell .vertical r c pos).2
    · rw [if_pos hp, if_pos (And.comm.1 hp)]
      show (if ((turned s).cells _ _).isDt = true then _ else _) = _
      have hv : (turned s).cells (axisCell .vertical r c pos).2 (axisCell .vertical r c pos).1 =
          s.cells (axisCell .vertical r c pos).1 (axisCell .vertical r c pos).2 := rfl
      rw [hv]
      by_cases hd : (s.cells (axisCell .vertical r c pos).1 (axisCell .vertical r c pos).2).isDt = true
      · rw [if_pos hd, if_pos hd]; rfl
      · rw [if_neg hd, if_neg hd, ← turned_touch, ← turned_touch, ih]
        obtain ⟨res, hres⟩ : ∃ res, multiParts ext .vertical pos
            ((s.touch r c).touch (axisCell .vertical r c pos).1 (axisCell .vertical r c pos).2) as = res := ⟨_, rfl⟩
        rw [hres]
        obtain ⟨x, t⟩ := res
        cases x <;> rfl
    · rw [if_neg hp, if_neg (fun e => hp (And.comm.1 e))]

theorem getTimeValue_turned (ext : Ext) {sp sp' : SParams} (h : Turned sp sp') (pos : Int) (s : Sheet) :
    getTimeValue ext sp' pos (turned s) =
      ((getTimeValue ext sp pos s).1, turned (getTimeValue ext sp pos s).2) := by
  have hm : sp'.timeMulticolumn = sp.timeMulticolumn := by rw [h.rest]
  unfold getTimeValue
  rw [hm, h.vertical, h.horizontal]
  have hth := h.timeHeader
  generalize sp.timeHeader = th at hth
  generalize sp'.timeHeader = th' at hth
  cases hth with
  | single hab =>
    cases sp.timeMulticolumn with
    | true => rfl
    | false =>
      obtain ⟨r, c, e1, e2⟩ := hab.coords
      dsimp only
      rw [e1, e2]
      dsimp only
      rw [turned_axis]
      dsimp only
      by_cases hp : 1 ≤ (axisCell .vertical r c pos).1 ∧ 1 ≤ (axisCell .vertical r c pos).2
      · rw [if_pos hp, if_pos (And.comm.1 hp)]; rfl
      · rw [if_neg hp, if_neg (fun e => hp (And.comm.1 e))]
  | @multi as bs hab =>
    cases sp.timeMulticolumn with
    | false => rfl
    | true =>
      dsimp only
      rw [multiParts_turned ext pos hab]
      obtain ⟨res, hres⟩ : ∃ res, multiParts ext .vertical pos s as = res := ⟨_, rfl⟩
      rw [hres]
      obtain ⟨x, t⟩ := res
      cases x <;> rfl

theorem timeHeaderCell_turned {th th' : TimeHeader} (h : TurnedHeader th th') :
    (∃ r c, timeHeaderCell th = .ok (r, c) ∧ timeHeaderCell th' = .ok (c, r)) ∨
      ∃ e, timeHeaderCell th = .error e ∧ timeHeaderCell th' = .error e := by
  cases h with
  | single hab => exact .inl hab.coords
  | multi hab =>
    cases hab with
    | nil => exact .inr ⟨_, rfl, rfl⟩
    | cons hab _ => exact .inl hab.coords

/-! ### The cleaning loop -/

theorem handleError_turned {sp sp' : SParams} (h : Turned sp sp') (st : CState) (s : Sheet) (r c : Int) (e : Err) :
    handleError sp' st (turned s) c r e =
      ((handleError sp st s r c e).1, turned (handleError sp st s r c e).2) := by
  have h1 : hasEnd sp' = hasEnd sp := by rw [h.rest]; rfl
  unfold handleError
  rw [h1]
  split
  · rw [turned_set]
  · split <;> rfl

theorem cleanValue_turned (ext : Ext) {sp sp' : SParams} (h : Turned sp sp') (st : CState) (s : Sheet)
    (r c : Int) (curr next : Cell) :
    cleanValue ext sp' st (turned s) c r curr next =
      ((cleanValue ext sp st s r c curr next).1, turned (cleanValue ext sp st s r c curr next).2) := by
  have h1 : mustBeTimeValue sp' curr = mustBeTimeValue sp curr := by rw [h.rest]; rfl
  have h2 : ∀ a b d e, parseTimeValue ext sp' a b d e = parseTimeValue ext sp a b d e := by
    intro a b d e
    have hs : ∀ old ps, searchParser ext sp' b d e old ps = searchParser ext sp b d e old ps := by
      intro old ps
      induction ps with
      | nil => rfl
      | cons p ps ih =>
        unfold searchParser
        rw [ih, h.rest]
    unfold parseTimeValue
    simp only [hs]
    rw [h.rest]
  have h3 : ∀ a b, correctStep sp' a b = correctStep sp a b := by intro a b; rw [h.rest]; rfl
  have h4 : sp'.frequency = sp.frequency := by rw [h.rest]
  have h5 : sp'.continuity = sp.continuity := by rw [h.rest]
  have h6 : sp'.blankRows = sp.blankRows := by rw [h.rest]
  unfold cleanValue
  rw [h1]
  split
  · dsimp only
    rw [h2]
    split
    · rw [handleError_turned h]
    · rw [h3]
      split
      · rw [handleError_turned h]
      · rfl
      · rw [h4]
        split
        · rw [handleError_turned h]
        · rw [turned_set]
  · rw [h5, h6]
    split <;> rfl

theorem cleanStep_turned (ext : Ext) {sp sp' : SParams} (h : Turned sp sp') (st : CState) (s : Sheet) (pos : Int) :
    cleanStep ext sp' st (turned s) pos =
      ((cleanStep ext sp st s pos).1, turned (cleanStep ext sp st s pos).2) := by
  unfold cleanStep
  rw [getTimeValue_turned ext h]
  obtain ⟨res, hres⟩ : ∃ res, getTimeValue ext sp pos s = res := ⟨_, rfl⟩
  rw [hres]
  obtain ⟨x, t⟩ := res
  cases x with
  | error e => rfl
  | ok curr =>
    dsimp only
    rw [getTimeValue_turned ext h]
    obtain ⟨res, hres⟩ : ∃ res, getTimeValue ext sp (pos + 1) t = res := ⟨_, rfl⟩
    rw [hres]
    obtain ⟨y, u⟩ := res
    cases y with
    | error e => rfl
    | ok next =>
      dsimp only
      rcases timeHeaderCell_turned h.timeHeader with ⟨r, c, e1, e2⟩ | ⟨e, e1, e2⟩
      · rw [e1, e2, h.vertical, h.horizontal]
        dsimp only
        rw [turned_axis, ← turned_touch, cleanValue_turned ext h]
      · rw [e1, e2]

theorem cleanLoop_turned (ext : Ext) {sp sp' : SParams} (h : Turned sp sp') :
    ∀ (ps : List Int) (st : CState) (s : Sheet) (reached : Option Int),
    cleanLoop ext sp' st (turned s) reached ps =
      ((cleanLoop ext sp st s reached ps).1, turned (cleanLoop ext sp st s reached ps).2)
  | [], _, _, _ => rfl
  | pos :: rest, st, s, reached => by
    unfold cleanLoop
    rw [cleanStep_turned ext h]
    obtain ⟨res, hres⟩ : ∃ res, cleanStep ext sp st s pos = res := ⟨_, rfl⟩
    rw [hres]
    obtain ⟨x, t⟩ := res
    cases x with
    | raise e => rfl
    | stop => rfl
    | next st' =>
      dsimp only
      rw [cleanLoop_turned ext h rest]

/-- The end found for the vertical series when the cell reached holds a date. -/
theorem estimateEnd_turned_dt {sp sp' : SParams} (h : Turned sp sp') {s : Sheet} {r c pos : Int}
    (hd : (s.cells pos c).isDt = true) : estimateEnd sp' (turned s) c r pos = estimateEnd sp s r c pos := by
  have h1 : sp'.dataStarts = sp.dataStarts := by rw [h.rest]
  have h2 : sp'.timeAlignment = sp.timeAlignment := by rw [h.rest]
  unfold estimateEnd
  rw [h.vertical, h.horizontal, h1, h2]
  dsimp only
  rw [show (turned s).cells c pos = s.cells pos c from rfl, if_pos hd]
  have : lastDtUp s c (pos - sp.dataStarts).toNat pos = pos := by
    cases (pos - sp.dataStarts).toNat with
    | zero => rfl
    | succ n => unfold lastDtUp; rw [if_pos hd]
  rw [this]

theorem estimateEnd_turned {sp sp' : SParams} (h : Turned sp sp') (s : Sheet) (r c pos : Int) :
    estimateEnd sp' (turned s) c r pos = estimateEnd sp s r c pos ∨
      estimateEnd sp' (turned s) c r pos = .error .typeError := by
  by_cases hd : (s.cells pos c).isDt = true
  · exact .inl (estimateEnd_turned_dt h hd)
  · right
    unfold estimateEnd
    rw [h.horizontal]
    dsimp only
    rw [show (turned s).cells c pos = s.cells pos c from rfl, if_neg hd]

theorem accepts_turned {sp sp' : SParams} (h : Turned sp sp') (cl : Cleaner) : cl.accepts sp' = cl.accepts sp := by
  rw [h.rest]; rfl

/-- The position a cleaning loop ends at is one it visited. -/
theorem cleanLoop_visited {ext : Ext} {sp : SParams} : ∀ (ps : List Int) {st : CState} {s s' : Sheet}
    {reached : Option Int} {pos : Int}, cleanLoop ext sp st s reached ps = (.ok (some pos), s') →
    reached = some pos ∨ pos ∈ ps
  | [], st, s, s', reached, pos, h => by
    unfold cleanLoop at h
    cases h
    exact .inl rfl
  | p :: ps, st, s, s', reached, pos, h => by
    unfold cleanLoop at h
    split at h
    · cases h
    · cases h
      exact .inr (by simp)
    · rcases cleanLoop_visited ps h with h | h
      · cases h
        exact .inr (by simp)
      · exact .inr (by simp [h])

/-- The positions visited in both directions. -/
theorem scanEnd_turned {sp sp' : SParams} (h : Turned sp sp') (s : Sheet) :
    scanEnd sp' (turned s) = scanEnd sp s := by
  have h1 : sp'.dataEnds = sp.dataEnds := by rw [h.rest]
  unfold scanEnd
  rw [h1, h.vertical, h.horizontal]
  rfl

theorem cleanTimeIndex_turned (ext : Ext) {sp sp' : SParams} (h : Turned sp sp') (s : Sheet) :
    (cleanTimeIndex ext sp' (turned s)).2 = turned (cleanTimeIndex ext sp s).2 ∧
    ((cleanTimeIndex ext sp' (turned s)).1 = (cleanTimeIndex ext sp s).1 ∨
      (cleanTimeIndex ext sp' (turned s)).1 = .error .typeError) ∧
    (sp.dataStarts < lastPosition sp s →
      (cleanTimeIndex ext sp s).1 = .ok (lastPosition sp s - sp.timeAlignment) →
      (cleanTimeIndex ext sp' (turned s)).1 = (cleanTimeIndex ext sp s).1) := by
  have h0 : sp'.dataStarts = sp.dataStarts := by rw [h.rest]
  unfold cleanTimeIndex
  simp only [accepts_turned h]
  split
  · exact ⟨rfl, .inl rfl, fun _ _ => rfl⟩
  · unfold cleanWith
    rw [if_neg (by rw [h.horizontal]; decide), if_neg (by rw [h.vertical]; decide), scanEnd_turned h, h0,
      cleanLoop_turned ext h]
    obtain ⟨res, hres⟩ : ∃ res, cleanLoop ext sp .init s none (intRange sp.dataStarts (scanEnd sp s + 1)) = res :=
      ⟨_, rfl⟩
    rw [hres]
    obtain ⟨x, t⟩ := res
    cases x with
    | error e => exact ⟨rfl, .inl rfl, fun _ _ => rfl⟩
    | ok o =>
      cases o with
      | none => exact ⟨rfl, .inl rfl, fun _ _ => rfl⟩
      | some pos =>
        dsimp only
        rcases timeHeaderCell_turned h.timeHeader with ⟨r, c, e1, e2⟩ | ⟨e, e1, e2⟩
        · rw [e1, e2]
          dsimp only
          refine ⟨rfl, estimateEnd_turned h _ _ _ _, fun hlt hend => ?_⟩
          refine estimateEnd_turned_dt h ?_
          rcases cleanLoop_visited _ hres with hv | hv
          · cases hv
          obtain ⟨hv1, hv2⟩ := mem_intRange.1 hv
          rw [scanEnd_eq] at hv2
          unfold estimateEnd at hend
          rw [h.vertical] at hend
          dsimp only at hend
          split at hend
          · injection hend with hend
            obtain ⟨k1, k2, k3, k4⟩ := lastDtUp_spec t c (pos - sp.dataStarts).toNat pos
            have hp : lastDtUp t c (pos - sp.dataStarts).toNat pos = pos := by omega
            rw [hp] at k4
            exact k4.resolve_right (by omega)
          · cases hend
        · rw [e1, e2]
          exact ⟨rfl, .inl rfl, fun _ _ => rfl⟩

/-! ### All time indexes -/

/-- Ends found for corresponding headers. -/
def EndsTurned (ends ends' : List (Str × Int)) : Prop :=
  List.Forall₂ (fun a b => TurnedCell a.1 b.1 ∧ b.2 = a.2) ends ends'

theorem endOf_turned {ends ends' : List (Str × Int)} (h : EndsTurned ends ends') {a b : Str} (hab : TurnedCell a b) :
    endOf ends' b = endOf ends a := by
  unfold endOf
  induction h with
  | nil => rfl
  | @cons x y xs ys hxy _ ih =>
    rw [List.find?_cons, List.find?_cons]
    by_cases hx : x.1 = a
    · have hy : y.1 = b := (hxy.1.eq_iff hab).1 hx
      simp only [hx, hy, decide_true, Option.map_some, hxy.2]
    · have hy : ¬ y.1 = b := fun e => hx ((hxy.1.eq_iff hab).2 e)
      simp only [hx, hy, decide_false]
      exact ih

theorem cleanOnce_turned (ext : Ext) {p p' : Params} {i : Nat} {sp sp' : SParams} (h1 : p.typed i = .ok sp)
    (h2 : p'.typed i = .ok sp') (h : Turned sp sp') {a b : Str} (hab : TurnedCell a b)
    {ends ends' : List (Str × Int)} (he : EndsTurned ends ends') (s : Sheet) :
    (cleanOnce ext p' (turned s) ends' i b).1 = .error .typeError ∨
    (cleanOnce ext p' (turned s) ends' i b).2 = turned (cleanOnce ext p s ends i a).2 ∧
    ((∃ e, (cleanOnce ext p s ends i a).1 = .error e ∧ (cleanOnce ext p' (turned s) ends' i b).1 = .error e) ∨
      ∃ stop e1 e1', (cleanOnce ext p s ends i a).1 = .ok (stop, e1) ∧
        (cleanOnce ext p' (turned s) ends' i b).1 = .ok (stop, e1') ∧ EndsTurned e1 e1') := by
  unfold cleanOnce
  rw [endOf_turned he hab]
  split
  · exact .inr ⟨rfl, .inr ⟨_, _, _, rfl, rfl, he⟩⟩
  · rw [h1, h2]
    dsimp only
    obtain ⟨k1, k2, _⟩ := cleanTimeIndex_turned ext h s
    obtain ⟨res, hres⟩ : ∃ res, cleanTimeIndex ext sp s = res := ⟨_, rfl⟩
    obtain ⟨res', hres'⟩ : ∃ res, cleanTimeIndex ext sp' (turned s) = res := ⟨_, rfl⟩
    rw [hres, hres'] at k1 k2
    rw [hres, hres']
    obtain ⟨x, t⟩ := res
    obtain ⟨x', t'⟩ := res'
    dsimp only at k1 k2
    subst k1
    rcases k2 with rfl | rfl
    · cases x' with
      | error e => exact .inr ⟨rfl, .inl ⟨e, rfl, rfl⟩⟩
      | ok stop =>
        dsimp only
        right
        by_cases h0 : stop = 0
        · rw [if_pos h0, if_pos h0]
          exact ⟨rfl, .inl ⟨_, rfl, rfl⟩⟩
        · rw [if_neg h0, if_neg h0]
          exact ⟨rfl, .inr ⟨_, _, _, rfl, rfl, List.rel_append he (.cons ⟨hab, rfl⟩ .nil)⟩⟩
    · exact .inl rfl

theorem Spec.Turned.ending {sp sp' : SParams} (h : Turned sp sp') (e : Option Int) :
    Turned { sp with dataEnds := e } { sp' with dataEnds := e } := by
  refine ⟨h.vertical, h.horizontal, h.header, h.composed, h.timeHeader, ?_⟩
  have := h.rest
  dsimp only
  rw [this]

theorem turned_endingAt {sp sp' : SParams} (h : Turned sp sp') (stop : Int) :
    Turned (endingAt stop sp) (endingAt stop sp') := by
  have hd : sp'.dataEnds = sp.dataEnds := by rw [h.rest]
  have e : (endingAt stop sp').dataEnds = (endingAt stop sp).dataEnds := by
    rw [endingAt_ends, endingAt_ends, hd]
  rw [endingAt_same, endingAt_same stop sp', e]
  exact h.ending _

theorem rawEnds_turned {sp sp' : SParams} (h : Turned sp sp') : rawValue sp' .dataEnds = rawValue sp .dataEnds := by
  rw [h.rest]; rfl

/-- Corresponding outcomes of a cleaning, unless the one of the horizontal series is a `TypeError`. -/
def SameClean (r r' : Except Err Unit × Params × Sheet) : Prop :=
  r'.1 = .error .typeError ∨
  (r'.1 = r.1 ∧ r'.2.2 = turned r.2.2 ∧
    (r.1 = .ok () → ∃ sps sps', HasSeries r.2.1 sps ∧ HasSeries r'.2.1 sps' ∧ List.Forall₂ Turned sps sps'))

theorem header_of_multi {p : Params} {sps : List SParams} (h : HasSeries p sps) {i : Nat}
    {sp : SParams} (hi : sps[i]? = some sp) {cs : List Str} (hth : sp.timeHeader = .multi cs) :
    (Params.index (p .timeHeaderCoord) i).bind PVal.asStr = .error .typeError := by
  rw [index_of_series h .timeHeaderCoord hi]
  show PVal.asStr (match sp.timeHeader with
    | .single c => .str c
    | .multi cs => .list (cs.map .str)) = _
  rw [hth]
  rfl

theorem cleanSeries_turned (ext : Ext) : ∀ {rest rest' : List SParams}, List.Forall₂ Turned rest rest' →
    ∀ {pre pre' : List SParams} {p p' : Params} {s : Sheet} {ends ends' : List (Str × Int)},
    List.Forall₂ Turned pre pre' → HasSeries p (pre ++ rest) → HasSeries p' (pre' ++ rest') →
    EndsTurned ends ends' →
    SameClean (cleanSeries ext (List.range' pre.length rest.length) p s ends)
      (cleanSeries ext (List.range' pre.length rest.length) p' (turned s) ends') := by
  intro rest rest' hr
  induction hr with
  | nil =>
    intro pre pre' p p' s ends ends' hpre hp hp' _
    rw [List.append_nil] at hp hp'
    exact .inr ⟨rfl, rfl, fun _ => ⟨pre, pre', hp, hp', hpre⟩⟩
  | @cons sp sp' rest rest' hsp hrest ih =>
    intro pre pre' p p' s ends ends' hpre hp hp' he
    have hlen : pre'.length = pre.length := hpre.length_eq.symm
    have hi : (pre ++ sp :: rest)[pre.length]? = some sp := by simp
    have hi' : (pre' ++ sp' :: rest')[pre.length]? = some sp' := by rw [← hlen]; simp
    rw [List.length_cons, List.range'_succ]
    unfold cleanSeries
    have hth := hsp.timeHeader
    obtain ⟨th, e1⟩ : ∃ th, sp.timeHeader = th := ⟨_, rfl⟩
    obtain ⟨th', e2⟩ : ∃ th, sp'.timeHeader = th := ⟨_, rfl⟩
    rw [e1, e2] at hth
    cases hth with
    | multi _ =>
      rw [header_of_multi hp' hi' e2]
      exact .inl rfl
    | @single a b hab =>
      rw [header_of_series hp hi e1, header_of_series hp' hi' e2]
      dsimp only
      have hone := cleanOnce_turned ext (typed_of_series hp hi) (typed_of_series hp' hi') hsp hab he s
      obtain ⟨r1, hr1⟩ : ∃ r, cleanOnce ext p s ends pre.length a = r := ⟨_, rfl⟩
      obtain ⟨r2, hr2⟩ : ∃ r, cleanOnce ext p' (turned s) ends' pre.length b = r := ⟨_, rfl⟩
      rw [hr1, hr2] at hone
      rw [hr1, hr2]
      obtain ⟨x, t⟩ := r1
      obtain ⟨x', t'⟩ := r2
      dsimp only at hone
      rcases hone with rfl | ⟨rfl, ⟨e, rfl, rfl⟩ | ⟨stop, k, k', rfl, rfl, hk⟩⟩
      · exact .inl rfl
      · exact .inr ⟨rfl, rfl, fun h => by cases h⟩
      · dsimp only
        rw [index_of_series hp .dataEnds hi, index_of_series hp' .dataEnds hi']
        dsimp only
        have h3 := setEnd_series stop hp
        have h3' := setEnd_series stop hp'
        rw [hlen] at h3'
        have := ih (pre := pre ++ [endingAt stop sp]) (pre' := pre' ++ [endingAt stop sp']) (s := t)
          (List.rel_append hpre (.cons (turned_endingAt hsp stop) .nil))
          (by rw [List.append_assoc]; exact h3) (by rw [List.append_assoc]; exact h3') hk
        rw [List.length_append, List.length_singleton] at this
        exact this

theorem setItem_ends {p : Params} {sps : List SParams} (hp : HasSeries p sps) (stop : Int) : ∃ p', p.setItem .dataEnds (.int stop) = .ok p' := by
  unfold Params.setItem
  dsimp only
  rw [if_neg (fun h => by cases h.1), if_neg (by decide)]
  unfold Params.setPlain
  rw [if_neg (by unfold Params.validParamList; simp), if_pos (show validParamValue (.int stop) (validValues .dataEnds) = true from rfl), num_of_series hp]
  unfold applyToAll
  dsimp only
  exact ⟨_, rfl⟩

theorem cleanData_turned (ext : Ext) {p p' : Params} {s : Sheet} {sps sps' : List SParams}
    (h : List.Forall₂ Turned sps sps') (hp : HasSeries p sps) (hp' : HasSeries p' sps') :
    SameClean (cleanData ext p s) (cleanData ext p' (turned s)) := by
  unfold cleanData
  cases h with
  | nil =>
    have e : Params.index (p .timeMulticolumn) 0 = .error .indexError := by rw [hp]; rfl
    have e' : Params.index (p' .timeMulticolumn) 0 = .error .indexError := by rw [hp']; rfl
    rw [e, e']
    exact .inr ⟨rfl, rfl, fun h => by cases h⟩
  | @cons sp sp' rest rest' hsp hrest =>
    have hi : (sp :: rest)[0]? = some sp := rfl
    have hi' : (sp' :: rest')[0]? = some sp' := rfl
    rw [index_of_series hp .timeMulticolumn hi, index_of_series hp' .timeMulticolumn hi',
      show rawValue sp' .timeMulticolumn = rawValue sp .timeMulticolumn from by rw [hsp.rest]; rfl]
    dsimp only
    split
    · unfold cleanMulti
      rw [typed_of_series hp hi, typed_of_series hp' hi', index_of_series hp .dataEnds hi,
        index_of_series hp' .dataEnds hi', rawEnds_turned hsp]
      dsimp only
      obtain ⟨k1, k2, _⟩ := cleanTimeIndex_turned ext hsp s
      obtain ⟨res, hres⟩ : ∃ res, cleanTimeIndex ext sp s = res := ⟨_, rfl⟩
      obtain ⟨res', hres'⟩ : ∃ res, cleanTimeIndex ext sp' (turned s) = res := ⟨_, rfl⟩
      rw [hres, hres'] at k1 k2
      rw [hres, hres']
      obtain ⟨x, t⟩ := res
      obtain ⟨x', t'⟩ := res'
      dsimp only at k1 k2
      subst k1
      rcases k2 with rfl | rfl
      · cases x' with
        | error e => exact .inr ⟨rfl, rfl, fun h => by cases h⟩
        | ok stop =>
          dsimp only
          split
          · exact .inr ⟨rfl, rfl, fun _ => ⟨_, _, hp, hp', .cons hsp hrest⟩⟩
          · obtain ⟨q, hq⟩ := setItem_ends hp stop
            obtain ⟨q', hq'⟩ := setItem_ends hp' stop
            rw [hq, hq']
            refine .inr ⟨rfl, rfl, fun _ => ⟨_, _, setItem_dataEnds hp (by simp) stop hq,
              setItem_dataEnds hp' (by simp) stop hq', ?_⟩⟩
            rw [List.forall₂_map_left_iff, List.forall₂_map_right_iff]
            exact List.Forall₂.imp (fun a b hab => hab.ending _) (.cons hsp hrest)
      · exact .inl rfl
    · have e : Params.len (p .timeHeaderCoord) = .ok (sp :: rest).length := by
        rw [hp]; unfold Params.len; simp
      have e' : Params.len (p' .timeHeaderCoord) = .ok (sp :: rest).length := by
        rw [hp', ← (List.Forall₂.cons hsp hrest).length_eq.symm]; unfold Params.len; simp
      rw [e, e']
      dsimp only
      rw [List.range_eq_range']
      exact cleanSeries_turned ext (.cons hsp hrest) (pre := []) (pre' := []) .nil hp hp' .nil

/-! ### Extraction -/

/-- A vertical series with complete cycles of frequencies and the horizontal one it becomes. -/
def Turned1 (sp sp' : SParams) : Prop := Turned sp sp' ∧ WholeCycles sp

/-- Cells and their exchange. -/
def swapped (l : List (Int × Int)) : List (Int × Int) := l.map fun rc => (rc.2, rc.1)

theorem turned_touchAll : ∀ (l : List (Int × Int)) (s : Sheet), (turned s).touchAll (swapped l) = turned (s.touchAll l)
  | [], _ => rfl
  | rc :: l, s => by
    show Sheet.touchAll ((turned s).touch rc.2 rc.1) (swapped l) = turned (Sheet.touchAll (s.touch rc.1 rc.2) l)
    rw [← turned_touch, turned_touchAll l]

theorem turned_read (s : Sheet) (r c : Int) : (turned s).read c r = s.read r c := by
  unfold Sheet.read turned
  simp only [and_comm]

theorem singleRanges_turned (ext : Ext) (s : Sheet) {a b : Str} (h : TurnedCell a b)
    (freq : Str) (ini stop ta : Int) :
    singleRanges ext (turned s) freq ini b stop ta .horizontal = singleRanges ext s freq ini a stop ta .vertical := by
  obtain ⟨r, c, e1, e2⟩ := h.coords
  unfold singleRanges
  rw [if_neg (by decide), if_neg (by decide), e1, e2]
  dsimp only
  rw [turned_axis, turned_axis, turned_read, turned_read]

theorem timeLine_turned (s : Sheet) (r c : Int) :
    timeLine (turned s) .horizontal c r = timeLine s .vertical r c := rfl

theorem zip_append_short {α β : Type} : ∀ (l : List α) (m n : List β), l.length ≤ m.length →
    l.zip (m ++ n) = l.zip m
  | [], m, n, h => by simp
  | _ :: _, [], n, h => by simp at h
  | a :: l, b :: m, n, h => by
    simp only [List.cons_append, List.zip_cons_cons]
    rw [zip_append_short l m n (by simpa using h)]

theorem endPairs_whole (line : List Cell) {freq : Str} {ini stop : Int} (h0 : 1 < freq.length)
    (h : (freq.length : Int) ∣ stop - ini + 1) :
    endPairs line freq ini stop .horizontal = endPairs line freq ini stop .vertical := by
  have hfe : freqEnd ini stop freq.length = freq.length := by
    unfold freqEnd
    rw [Int.emod_eq_zero_of_dvd h]
    rfl
  unfold endPairs
  simp only [hfe]
  rw [if_neg (by decide), if_pos True.intro, List.take_length, List.reverse_append]
  refine zip_append_short _ _ _ ?_
  unfold pySlice
  simp only [List.length_reverse, List.length_drop, List.length_take]
  split <;> split <;> omega

theorem multiRanges_turned (ext : Ext) (s : Sheet) {a b : Str} (h : TurnedCell a b) {freq : Str} {ini stop : Int}
    (h0 : 1 < freq.length) (hd : (freq.length : Int) ∣ stop - ini + 1) :
    multiRanges ext (turned s) freq ini b stop .horizontal = multiRanges ext s freq ini a stop .vertical := by
  obtain ⟨r, c, e1, e2⟩ := h.coords
  unfold multiRanges
  rw [if_neg (by decide), if_neg (by decide), e1, e2]
  dsimp only
  rw [timeLine_turned, endPairs_whole _ h0 hd]

theorem seriesRanges_turned (ext : Ext) (s : Sheet) {a b : Str} (h : TurnedCell a b)
    {freq : Str} {ini stop : Int} (hf : 1 < freq.length → (freq.length : Int) ∣ stop - ini + 1) (ta : Int) :
    seriesRanges ext (turned s) freq ini b stop ta .horizontal = seriesRanges ext s freq ini a stop ta .vertical := by
  unfold seriesRanges
  rw [singleRanges_turned ext s h]
  by_cases h1 : 1 < freq.length
  · rw [multiRanges_turned ext s h h1 (hf h1)]
  · rw [if_neg h1, if_neg h1]

theorem rangeReads_turned {a b : Str} (h : TurnedCell a b) (freq : Str) (ini stop ta : Int) :
    rangeReads freq ini b stop ta .horizontal = swapped (rangeReads freq ini a stop ta .vertical) := by
  obtain ⟨r, c, e1, e2⟩ := h.coords
  unfold rangeReads
  rw [e1, e2]
  dsimp only
  split <;> rfl

theorem singleHeader_turned {th th' : TimeHeader} (h : TurnedHeader th th') (first : Bool) :
    (∃ e, singleHeader first th = .error e ∧ singleHeader first th' = .error e) ∨
      ∃ a b, singleHeader first th = .ok a ∧ singleHeader first th' = .ok b ∧ TurnedCell a b := by
  cases h with
  | single h => exact .inr ⟨_, _, rfl, rfl, h⟩
  | multi h =>
    cases h with
    | nil => cases first <;> exact .inl ⟨_, rfl, rfl⟩
    | cons h _ =>
      cases first with
      | false => exact .inl ⟨_, rfl, rfl⟩
      | true => exact .inr ⟨_, _, rfl, rfl, h⟩

/-- Corresponding outcomes of a step of the extraction. -/
def SameStep {α : Type} (r r' : Except Err (α × Sheet)) : Prop :=
  (∃ e, r = .error e ∧ r' = .error e) ∨ ∃ x t, r = .ok (x, t) ∧ r' = .ok (x, turned t)

theorem asHeader_raw (sp : SParams) : (rawValue sp .timeHeaderCoord).asHeader = .ok sp.timeHeader := by
  show PVal.asHeader (match sp.timeHeader with
    | .single c => .str c
    | .multi cs => .list (cs.map .str)) = _
  cases sp.timeHeader with
  | single c => rfl
  | multi cs =>
    show (match asStrs (cs.map .str) with
      | .ok a => Except.ok (TimeHeader.multi a)
      | .error e => .error e) = _
    rw [asStrs_map]

theorem rangesOfArgs_turned (ext : Ext) {p p' : Params} (hm : p' .timeMulticolumn = p .timeMulticolumn)
    (s : Sheet) {sp sp' : SParams} (h : Turned1 sp sp') :
    (∃ e, rangesOfArgs ext p s (argsOf sp) = .error e ∧ rangesOfArgs ext p' (turned s) (argsOf sp') = .error e) ∨
      ∃ prs reads, rangesOfArgs ext p s (argsOf sp) = .ok (prs, reads) ∧
        rangesOfArgs ext p' (turned s) (argsOf sp') = .ok (prs, swapped reads) := by
  have e1 : rawValue sp' .dataEnds = rawValue sp .dataEnds := rawEnds_turned h.1
  have e2 : rawValue sp' .dataStarts = rawValue sp .dataStarts := by rw [h.1.rest]; rfl
  have e3 : rawValue sp' .frequency = .str sp.frequency := by rw [h.1.rest]; rfl
  have e4 : rawValue sp' .timeAlignment = .int sp.timeAlignment := by rw [h.1.rest]; rfl
  unfold rangesOfArgs argsOf
  dsimp only
  rw [e1, e2, e3, e4, show rawValue sp .frequency = .str sp.frequency from rfl,
    show rawValue sp .timeAlignment = .int sp.timeAlignment from rfl, asAlign_raw, asAlign_raw, h.1.vertical,
    h.1.horizontal, asHeader_raw, asHeader_raw, hm]
  have hcyc := h.2
  unfold WholeCycles at hcyc
  have e5 : orNone PVal.asInt (rawValue sp .dataEnds) = .ok sp.dataEnds := by
    show orNone PVal.asInt (sp.dataEnds.elim PVal.none PVal.int) = _
    cases sp.dataEnds <;> rfl
  have e6 : (rawValue sp .dataStarts).asInt = .ok sp.dataStarts := rfl
  rw [e5, e6]
  generalize sp.dataEnds = stop at hcyc
  generalize sp.dataStarts = ini at hcyc
  · rw [bind_intro rfl, bind_intro rfl]
    · rw [bind_intro rfl, bind_intro rfl]
      cases stop with
      | none => exact .inl ⟨_, rfl, rfl⟩
      | some stop =>
        dsimp only
        by_cases h0 : stop = 0 ∨ stop ≤ ini
        · rw [if_pos h0, if_pos h0]
          exact .inl ⟨_, rfl, rfl⟩
        · rw [if_neg h0, if_neg h0, bind_intro rfl, bind_intro rfl]
          rcases singleHeader_turned h.1.timeHeader (p .timeMulticolumn).truthy with ⟨e, k1, k2⟩ | ⟨a, b, k1, k2, hab⟩
          · rw [k1, k2]
            exact .inl ⟨_, rfl, rfl⟩
          · rw [k1, k2, bind_intro rfl, bind_intro rfl,
              bind_intro (show (PVal.str sp.frequency).asStr = .ok sp.frequency from rfl),
              bind_intro (show (PVal.str sp.frequency).asStr = .ok sp.frequency from rfl),
              bind_intro (show (PVal.int sp.timeAlignment).asInt = .ok sp.timeAlignment from rfl),
              bind_intro (show (PVal.int sp.timeAlignment).asInt = .ok sp.timeAlignment from rfl),
              seriesRanges_turned ext s hab (fun k => hcyc k _ rfl)]
            cases seriesRanges ext s sp.frequency ini a stop sp.timeAlignment .vertical with
            | error e => exact .inl ⟨_, rfl, rfl⟩
            | ok prs => exact .inr ⟨prs, _, rfl, by rw [rangeReads_turned hab]; rfl⟩

theorem bucketLoop_turned (ext : Ext) {p p' : Params} (hm : p' .timeMulticolumn = p .timeMulticolumn)
    {sps sps' : List SParams} (h : List.Forall₂ Turned1 sps sps') :
    ∀ (s : Sheet) (bs : List Bucket),
    SameStep (bucketLoop ext p (sps.map argsOf) s bs) (bucketLoop ext p' (sps'.map argsOf) (turned s) bs) := by
  induction h with
  | nil => intro s bs; exact .inr ⟨_, _, rfl, rfl⟩
  | @cons sp sp' rest rest' hsp _ ih =>
    intro s bs
    rw [List.map_cons, List.map_cons]
    unfold bucketLoop
    rcases rangesOfArgs_turned ext hm s hsp with ⟨e, k1, k2⟩ | ⟨prs, reads, k1, k2⟩
    · rw [k1, k2]
      exact .inl ⟨_, rfl, rfl⟩
    · rw [k1, k2]
      dsimp only
      cases addBuckets bs prs with
      | error e => exact .inl ⟨_, rfl, rfl⟩
      | ok bs' =>
        dsimp only
        rw [turned_touchAll]
        exact ih _ bs'

theorem cellAt_turned (s : Sheet) {a b : Str} (h : TurnedCell a b) :
    cellAt (turned s) b = cellAt s a := by
  obtain ⟨r, c, e1, e2⟩ := h.coords
  unfold cellAt
  rw [e1, e2]
  rfl

theorem composedParts_turned (ext : Ext) (s : Sheet) {as bs : List Str}
    (h : List.Forall₂ TurnedCell as bs) : composedParts ext (turned s) bs = composedParts ext s as := by
  induction h with
  | nil => rfl
  | cons hab _ ih =>
    unfold composedParts
    rw [cellAt_turned s hab, ih]

theorem getName_turned (ext : Ext) (s : Sheet) {sp sp' : SParams} (h : Turned sp sp') :
    getName ext sp' (turned s) = getName ext sp s := by
  have e1 : sp'.seriesName = sp.seriesName := by rw [h.rest]
  have e2 : sp'.context = sp.context := by rw [h.rest]
  unfold getName
  rw [e1, e2, cellAt_turned s h.header, composedParts_turned ext s h.composed]

theorem nonContHeader_turned {sp sp' : SParams} (h : Turned sp sp') :
    (∃ r c, nonContHeader sp = .ok (r, c) ∧ nonContHeader sp' = .ok (c, r)) ∨
      ∃ e, nonContHeader sp = .error e ∧ nonContHeader sp' = .error e := by
  have e3 : sp'.timeMulticolumn = sp.timeMulticolumn := by rw [h.rest]
  unfold nonContHeader
  rw [e3]
  have hth := h.timeHeader
  generalize sp.timeHeader = th at hth
  generalize sp'.timeHeader = th' at hth
  cases hth with
  | single hab =>
    cases sp.timeMulticolumn with
    | true => exact .inr ⟨_, rfl, rfl⟩
    | false => exact .inl hab.coords
  | multi hab =>
    cases sp.timeMulticolumn with
    | false => exact .inr ⟨_, rfl, rfl⟩
    | true =>
      cases hab with
      | nil => exact .inr ⟨_, rfl, rfl⟩
      | cons hab _ => exact .inl hab.coords

theorem toBeAdded_turned (s : Sheet) {sp sp' : SParams} (h : Turned sp sp')
    (v : Option Num) (i : Int) : toBeAdded sp' (turned s) v i = toBeAdded sp s v i := by
  have e1 : sp'.continuity = sp.continuity := by rw [h.rest]
  have e2 : sp'.timeAlignment = sp.timeAlignment := by rw [h.rest]
  have hn := nonContHeader_turned h
  unfold toBeAdded
  rw [e1, e2]
  split
  · rfl
  · rcases hn with ⟨r, c, k1, k2⟩ | ⟨e, k1, k2⟩
    · rw [k1, k2, h.vertical, h.horizontal]
      dsimp only
      rw [turned_axis, turned_read]
    · rw [k1, k2]

theorem valuesLoop_turned (ext : Ext) (s : Sheet) {sp sp' : SParams}
    (h : Turned sp sp') (r c : Int) : ∀ (is : List Int) (m : List (Str × List Num)) (last : Str),
    valuesLoop ext sp' (turned s) c r is m last = valuesLoop ext sp s r c is m last
  | [], _, _ => rfl
  | i :: is, m, last => by
    have e1 : ∀ v, handleValue ext sp' v = handleValue ext sp v := by intro v; rw [h.rest]; rfl
    have e2 : sp'.frequency = sp.frequency := by rw [h.rest]
    unfold valuesLoop
    simp only [h.vertical, h.horizontal, turned_axis, turned_read, e1, toBeAdded_turned s h, e2,
      valuesLoop_turned ext s h r c is]

theorem getValues_turned (ext : Ext) (s : Sheet) {sp sp' : SParams}
    (h : Turned sp sp') : getValues ext sp' (turned s) = getValues ext sp s := by
  have e1 : sp'.dataEnds = sp.dataEnds := by rw [h.rest]
  have e2 : sp'.dataStarts = sp.dataStarts := by rw [h.rest]
  have e3 : sp'.missings = sp.missings := by rw [h.rest]
  have e4 : sp'.missingValue = sp.missingValue := by rw [h.rest]
  have e5 : sp'.frequency = sp.frequency := by rw [h.rest]
  obtain ⟨r, c, k1, k2⟩ := h.header.coords
  unfold getValues
  rw [if_neg (by rw [h.horizontal]; decide), if_neg (by rw [h.vertical]; decide), k1, k2, e1, e2, e3, e4, e5]
  dsimp only
  simp only [valuesLoop_turned ext s h r c]
  rcases timeHeaderCell_turned h.timeHeader with ⟨tr, tc, t1, t2⟩ | ⟨e, t1, t2⟩
  · rw [t1, t2]
    have hc : ∀ is, timeCells sp' (turned s) tc tr is = timeCells sp s tr tc is := by
      intro is
      unfold timeCells
      refine List.map_congr_left fun i _ => ?_
      dsimp only
      rw [h.vertical, h.horizontal, turned_axis]
      rfl
    simp only [hc]
  · rw [t1, t2]

theorem getSeries_turned (ext : Ext) (s : Sheet) {sp sp' : SParams}
    (h : Turned sp sp') : getSeries ext sp' (turned s) = getSeries ext sp s := by
  unfold getSeries
  rw [getName_turned ext s h, getValues_turned ext s h]

theorem coordCell_turned {a b : Str} (h : TurnedCell a b) : coordCell b = swapped (coordCell a) := by
  obtain ⟨r, c, e1, e2⟩ := h.coords
  unfold coordCell
  rw [e1, e2]
  rfl

theorem coordCells_turned {as bs : List Str} (h : List.Forall₂ TurnedCell as bs) :
    bs.flatMap coordCell = swapped (as.flatMap coordCell) := by
  induction h with
  | nil => rfl
  | cons hab _ ih =>
    rw [List.flatMap_cons, List.flatMap_cons, ih, coordCell_turned hab]
    unfold swapped
    rw [List.map_append]

theorem swapped_axis (r c : Int) (is : List Int) :
    is.map (axisCell .horizontal c r) = swapped (is.map (axisCell .vertical r c)) := by
  unfold swapped
  rw [List.map_map]
  rfl

theorem seriesReads_turned (ext : Ext) (s : Sheet) {sp sp' : SParams} (h : Turned sp sp') :
    seriesReads ext sp' (turned s) = swapped (seriesReads ext sp s) := by
  have e1 : sp'.dataEnds = sp.dataEnds := by rw [h.rest]
  have e2 : sp'.dataStarts = sp.dataStarts := by rw [h.rest]
  have e3 : sp'.missings = sp.missings := by rw [h.rest]
  have e4 : sp'.missingValue = sp.missingValue := by rw [h.rest]
  have e5 : sp'.frequency = sp.frequency := by rw [h.rest]
  have e6 : sp'.continuity = sp.continuity := by rw [h.rest]
  have e7 : sp'.timeAlignment = sp.timeAlignment := by rw [h.rest]
  have e8 : sp'.seriesName = sp.seriesName := by rw [h.rest]
  have happ : ∀ a b, swapped (a ++ b) = swapped a ++ swapped b := fun a b => List.map_append
  obtain ⟨r, c, k1, k2⟩ := h.header.coords
  unfold seriesReads
  rw [e1, e2, e3, e4, e5, e6, e7, e8, h.vertical, h.horizontal, k1, k2]
  dsimp only
  rw [happ, happ, happ]
  congr 1
  · congr 1
    · congr 1
      · split
        · rfl
        · rw [coordCell_turned h.header, coordCells_turned h.composed, happ]
      · show (c, r) :: _ = (c, r) :: _
        rw [swapped_axis]
        rfl
    · rcases nonContHeader_turned h with ⟨tr, tc, n1, n2⟩ | ⟨e, n1, n2⟩
      · rw [n1, n2]
        cases sp.continuity with
        | true => rfl
        | false =>
          show (tc, tr) :: _ = (tc, tr) :: List.map _ _
          rw [List.map_map]
          rfl
      · rw [n1, n2]
        cases sp.continuity <;> rfl
  · simp only [valuesLoop_turned ext s h r c]
    rcases timeHeaderCell_turned h.timeHeader with ⟨tr, tc, t1, t2⟩ | ⟨e, t1, t2⟩
    · rw [t1, t2]
      cases sp.missings with
      | false => rfl
      | true =>
        cases cellIn (.str c!"Implicit") sp.missingValue with
        | error e => rfl
        | ok b =>
          cases b with
          | false => rfl
          | true =>
            cases sp.frequency.length == 1 with
            | false => rfl
            | true =>
              dsimp only
              rw [swapped_axis]
              rfl
    · rw [t1, t2]
      cases sp.missings <;> cases cellIn (.str c!"Implicit") sp.missingValue <;>
        cases sp.frequency.length == 1 <;> first | rfl | (rename_i b; cases b <;> rfl)

theorem seriesStep_turned (ext : Ext) {p p' : Params} {i : Nat} {sp sp' : SParams} (h1 : p.typed i = .ok sp)
    (h2 : p'.typed i = .ok sp') (h : Turned1 sp sp') (s : Sheet) (bs : List Bucket) :
    SameStep (seriesStep ext p i s bs) (seriesStep ext p' i (turned s) bs) := by
  have e1 : sp'.dataEnds = sp.dataEnds := by rw [h.1.rest]
  have e2 : sp'.dataStarts = sp.dataStarts := by rw [h.1.rest]
  have e3 : sp'.timeMulticolumn = sp.timeMulticolumn := by rw [h.1.rest]
  have e4 : sp'.timeAlignment = sp.timeAlignment := by rw [h.1.rest]
  have e5 : sp'.frequency = sp.frequency := by rw [h.1.rest]
  have e6 : (fun x : Extractor => x.accepts sp') = fun x => x.accepts sp := by
    funext x; rw [h.1.rest]; rfl
  unfold seriesStep
  rw [bind_intro h1, bind_intro h2, e6]
  dsimp only
  cases extractors.find? fun x => x.accepts sp with
  | none => exact .inl ⟨_, rfl, rfl⟩
  | some x =>
    dsimp only
    rw [getSeries_turned ext s h.1]
    cases getSeries ext sp s with
    | error e => exact .inl ⟨_, rfl, rfl⟩
    | ok nv =>
      rw [bind_intro rfl, bind_intro rfl]
      by_cases hn : nv.isEmpty = true
      · rw [if_pos hn, if_pos hn]
        exact .inl ⟨_, rfl, rfl⟩
      · rw [if_neg hn, if_neg hn, e1, e2, e3, e4, e5, h.1.vertical, h.1.horizontal]
        rcases singleHeader_turned h.1.timeHeader sp.timeMulticolumn with ⟨e, k1, k2⟩ | ⟨a, b, k1, k2, hab⟩
        · rw [k1, k2]
          exact .inl ⟨_, rfl, rfl⟩
        · rw [k1, k2, bind_intro rfl, bind_intro rfl]
          have hcyc := h.2
          unfold WholeCycles at hcyc
          generalize hde : sp.dataEnds = ends at hcyc
          cases ends with
          | none => exact .inl ⟨_, rfl, rfl⟩
          | some stop =>
            dsimp only
            rw [seriesReads_turned ext s h.1, turned_touchAll, seriesRanges_turned ext _ hab (fun k => hcyc k _ rfl)]
            cases seriesRanges ext (s.touchAll (seriesReads ext sp s)) sp.frequency sp.dataStarts a stop
                sp.timeAlignment .vertical with
            | error e => exact .inl ⟨_, rfl, rfl⟩
            | ok prs =>
              rw [bind_intro rfl, bind_intro rfl]
              cases putAll (prs.zip nv) bs with
              | error e => exact .inl ⟨_, rfl, rfl⟩
              | ok bs' =>
                refine .inr ⟨bs', _, rfl, ?_⟩
                rw [rangeReads_turned hab, turned_touchAll]
                rfl

theorem seriesLoop_turned (ext : Ext) {p p' : Params} {sps sps' : List SParams} (hp : HasSeries p sps)
    (hp' : HasSeries p' sps') (h : List.Forall₂ Turned1 sps sps') : ∀ (is : List Nat) (s : Sheet)
    (bs : List Bucket), (∀ i ∈ is, i < sps.length) →
    SameStep (seriesLoop ext p is s bs) (seriesLoop ext p' is (turned s) bs)
  | [], s, bs, _ => .inr ⟨_, _, rfl, rfl⟩
  | i :: is, s, bs, hi => by
    unfold seriesLoop
    have hlt := hi i (by simp)
    have hlt' : i < sps'.length := by rw [← h.length_eq]; exact hlt
    have hrel : Turned1 sps[i] sps'[i] := (List.forall₂_iff_get.1 h).2 i hlt hlt'
    rcases seriesStep_turned ext (typed_of_series hp (List.getElem?_eq_getElem hlt))
      (typed_of_series hp' (List.getElem?_eq_getElem hlt')) hrel s bs with ⟨e, k1, k2⟩ | ⟨x, t, k1, k2⟩
    · rw [k1, k2]
      exact .inl ⟨_, rfl, rfl⟩
    · rw [k1, k2]
      exact seriesLoop_turned ext hp hp' h is t x (fun j hj => hi j (by simp [hj]))

theorem getData_turned (ext : Ext) {p p' : Params} {sps sps' : List SParams} (hp : HasSeries p sps)
    (hp' : HasSeries p' sps') (h : List.Forall₂ Turned1 sps sps') (s : Sheet) :
    getData ext p' (turned s) = ((getData ext p s).1, turned (getData ext p s).2) := by
  have hm : p' .timeMulticolumn = p .timeMulticolumn := by
    rw [hp, hp']
    congr 1
    refine List.ext_getElem (by simp [h.length_eq]) fun i h1 h2 => ?_
    rw [List.getElem_map, List.getElem_map]
    have hrel : Turned1 _ _ := (List.forall₂_iff_get.1 h).2 i (by simpa using h2) (by simpa using h1)
    show rawValue (sps'[i]'(by simpa using h1)) _ = _
    rw [show (sps'[i]'(by simpa using h1)) = _ from hrel.1.rest]
    rfl
  unfold getData
  rw [rangeArgs_series hp, rangeArgs_series hp']
  have hb : ∀ {α β : Type} (a : α) (f : α → Except Err β), (Except.ok a).bind f = f a := fun _ _ => rfl
  rw [hb, hb]
  rcases bucketLoop_turned ext hm h s [] with ⟨e, k1, k2⟩ | ⟨bs, t, k1, k2⟩
  · rw [k1, k2]
  · rw [k1, k2]
    dsimp only
    have l1 : Params.len (p .headersCoord) = .ok sps.length := by
      rw [hp]; unfold Params.len; simp
    have l2 : Params.len (p' .headersCoord) = .ok sps.length := by
      rw [hp', h.length_eq]; unfold Params.len; simp
    rw [l1, l2]
    dsimp only
    rcases seriesLoop_turned ext hp hp' h (List.range sps.length) t bs (by simp) with
      ⟨e, k1, k2⟩ | ⟨bs', u, k1, k2⟩
    · rw [k1, k2]
    · rw [k1, k2]

/-- Cleaning and extraction in both directions. -/
theorem scrape_turned (ext : Ext) {p p' : Params} {sps sps' : List SParams} (hp : HasSeries p sps)
    (hp' : HasSeries p' sps') (h : List.Forall₂ Turned sps sps') (s : Sheet)
    (hw : ∀ sps1, HasSeries (scrape ext p s).2.1 sps1 → ∀ sp ∈ sps1, WholeCycles sp) :
    (scrape ext p' (turned s)).1 = .error .typeError ∨
    ((scrape ext p' (turned s)).1 = (scrape ext p s).1 ∧
      (scrape ext p' (turned s)).2.2 = turned (scrape ext p s).2.2) := by
  have hc := cleanData_turned ext (s := s) h hp hp'
  unfold scrape at hw ⊢
  obtain ⟨res, hres⟩ : ∃ r, cleanData ext p s = r := ⟨_, rfl⟩
  obtain ⟨res', hres'⟩ : ∃ r, cleanData ext p' (turned s) = r := ⟨_, rfl⟩
  rw [hres, hres'] at hc
  rw [hres] at hw
  rw [hres, hres']
  obtain ⟨x, q, t⟩ := res
  obtain ⟨x', q', t'⟩ := res'
  unfold SameClean at hc
  dsimp only at hc
  rcases hc with rfl | ⟨rfl, rfl, hq⟩
  · exact .inl rfl
  · cases x' with
    | error e => exact .inr ⟨rfl, rfl⟩
    | ok u =>
      obtain ⟨qs, qs', hq1, hq2, hqq⟩ := hq rfl
      dsimp only at hw ⊢
      have hqq1 : List.Forall₂ Turned1 qs qs' := by
        have hw := hw qs hq1
        clear hq1 hq2 hq
        induction hqq with
        | nil => exact .nil
        | cons h1 _ ih => exact .cons ⟨h1, hw _ (by simp)⟩ (ih fun sp hsp => hw sp (by simp [hsp]))
      rw [getData_turned ext hq1 hq2 hqq1 t]
      exact .inr ⟨rfl, rfl⟩

end Xls
