/-
A worksheet with rows and columns exchanged when the ends of the series are given and no date is missing.
-/
import Verif.Lemmas.Turned
import Verif.Lemmas.Columns
import Verif.Lemmas.Usable

set_option autoImplicit false

namespace Xls

open Spec

/-- A cell in which cleaning does not look for a date. -/
def NotTime : Cell → Prop
  | .none => True
  | .str s => strip s = []
  | _ => False

theorem mustBe_inLine {sp : SParams} (h : sp.timeAlignment = 0) (v : Cell) :
    mustBeTimeValue sp v = false ↔ NotTime v := by
  unfold mustBeTimeValue NotTime
  rw [h]
  cases v <;> simp

/-- Cells without a time value stay as they are. -/
theorem cleanStep_notTime {ext : Ext} {sp : SParams} (hm : sp.timeMulticolumn = false) (ha : sp.timeAlignment = 0)
    {st st' : CState} {s s' : Sheet} {pos r c : Int} (h : cleanStep ext sp st s pos = (.next st', s'))
    (hb : NotTime (s.cells r c)) : s'.cells r c = s.cells r c := by
  obtain ⟨hr, hc, curr, next, s0, hh, hs0, hcurr, _, hn⟩ := cleanStep_next h
  have e := getTimeValue_single hm hh hcurr
  have key : mustBeTimeValue sp curr = true → ∀ v,
      (s0.set (rowOf sp.alignment hr pos) (colOf sp.alignment hc pos) v).cells r c = s.cells r c := by
    intro hmust v
    unfold Sheet.set
    dsimp only
    rw [hs0]
    split
    · next hrc =>
      exfalso
      rw [hrc.1, hrc.2] at hb
      have := (mustBe_inLine ha _).2 hb
      rw [e] at hmust
      unfold timeCell at hmust
      rw [this] at hmust
      cases hmust
    · rfl
  cases hn with
  | write t0 t p st1 must parsed corr fresh hst hs => rw [hs]; exact key must _
  | blanked p e must parsed out hst hs => rw [hs]; exact key must _
  | skipped must few may hst hs => rw [hs, hs0]

/-- A position that a step went past has a date or nothing afterwards. -/
theorem cleanStep_past {ext : Ext} {sp : SParams} (hm : sp.timeMulticolumn = false) (ha : sp.timeAlignment = 0)
    {st st' : CState} {s s' : Sheet} {pos hr hc : Int} (hh : timeHeaderCell sp.timeHeader = .ok (hr, hc))
    (h : cleanStep ext sp st s pos = (.next st', s')) :
    (timeCell s' sp.alignment hr hc pos).isDt = true ∨ NotTime (timeCell s' sp.alignment hr hc pos) := by
  obtain ⟨hr', hc', curr, next, s0, hh', hs0, hcurr, _, hn⟩ := cleanStep_next h
  rw [hh] at hh'
  cases hh'
  have e := getTimeValue_single hm hh hcurr
  cases hn with
  | write t0 t p st1 must parsed corr fresh hst hs =>
    left
    rw [hs]
    unfold timeCell Sheet.set
    simp [Cell.isDt]
  | blanked p e must parsed out hst hs =>
    right
    rw [hs]
    unfold timeCell Sheet.set NotTime
    simp
  | skipped must few may hst hs =>
    right
    have := (mustBe_inLine ha _).1 must
    rw [e] at this
    rw [hs]
    unfold timeCell at this ⊢
    rw [hs0]
    exact this

theorem cleanStep_stopped {ext : Ext} {sp : SParams} (hm : sp.timeMulticolumn = false) (ha : sp.timeAlignment = 0)
    (he : hasEnd sp = true) {st : CState} {s s' : Sheet} {pos hr hc : Int}
    (hh : timeHeaderCell sp.timeHeader = .ok (hr, hc)) (h : cleanStep ext sp st s pos = (.stop, s')) :
    NotTime (timeCell s' sp.alignment hr hc pos) := by
  have hcells := cleanStep_end h (fun _ => by simp)
  obtain ⟨hr', hc', curr, next, s0, hh', hs0, hcurr, _, hn⟩ := cleanStep_stop h
  rw [hh] at hh'
  cases hh'
  have e := getTimeValue_single hm hh hcurr
  rcases cleanValue_stop hn with ⟨h1, _⟩ | ⟨_, h2, _⟩
  · have := (mustBe_inLine ha _).1 h1
    rw [e] at this
    unfold timeCell at this ⊢
    rw [hcells]
    exact this
  · rw [he] at h2
    cases h2

theorem cleanLoop_notTime {ext : Ext} {sp : SParams} (hm : sp.timeMulticolumn = false) (ha : sp.timeAlignment = 0)
    {r c : Int} : ∀ (ps : List Int) {st : CState} {s s' : Sheet} {reached : Option Int} {x : Except Err (Option Int)},
    cleanLoop ext sp st s reached ps = (x, s') → NotTime (s.cells r c) → s'.cells r c = s.cells r c
  | [], st, s, s', reached, x, h, hb => by
    unfold cleanLoop at h
    cases h
    rfl
  | p :: ps, st, s, s', reached, x, h, hb => by
    unfold cleanLoop at h
    split at h
    next e t hs => cases h; rw [cleanStep_end hs (fun _ => by simp)]
    next t hs => cases h; rw [cleanStep_end hs (fun _ => by simp)]
    next st' t hs =>
      have e := cleanStep_notTime hm ha hs hb
      rw [← e]
      exact cleanLoop_notTime hm ha ps h (by rw [e]; exact hb)

/-- Where a loop ends there is a date or nothing. -/
theorem cleanLoop_reached {ext : Ext} {sp : SParams} (hm : sp.timeMulticolumn = false) (ha : sp.timeAlignment = 0)
    (he : hasEnd sp = true) {hr hc : Int} (hh : timeHeaderCell sp.timeHeader = .ok (hr, hc)) :
    ∀ (ps : List Int) {st : CState} {s s' : Sheet} {reached : Option Int} {pos : Int},
    ps.Nodup → cleanLoop ext sp st s reached ps = (.ok (some pos), s') →
    (∀ q, reached = some q → q ∉ ps ∧
      ((timeCell s sp.alignment hr hc q).isDt = true ∨ NotTime (timeCell s sp.alignment hr hc q))) →
    (timeCell s' sp.alignment hr hc pos).isDt = true ∨ NotTime (timeCell s' sp.alignment hr hc pos)
  | [], st, s, s', reached, pos, _, h, hr0 => by
    unfold cleanLoop at h
    cases h
    exact (hr0 pos rfl).2
  | p :: ps, st, s, s', reached, pos, hn, h, _ => by
    unfold cleanLoop at h
    split at h
    next e t hs => cases h
    next t hs => cases h; exact .inr (cleanStep_stopped hm ha he hh hs)
    next st' t hs =>
      refine cleanLoop_reached hm ha he hh ps (List.nodup_cons.1 hn).2 h fun q hq => ?_
      cases hq
      exact ⟨(List.nodup_cons.1 hn).1, cleanStep_past hm ha hh hs⟩

theorem intRange_nodup (a b : Int) : (intRange a b).Nodup := by
  unfold intRange
  refine List.Nodup.map (fun x y h => ?_) List.nodup_range
  simpa using h

theorem cleanTimeIndex_notTime {ext : Ext} {sp : SParams} (hm : sp.timeMulticolumn = false)
    (ha : sp.timeAlignment = 0) {r c : Int} {s : Sheet} (hb : NotTime (s.cells r c)) :
    (cleanTimeIndex ext sp s).2.cells r c = s.cells r c := by
  unfold cleanTimeIndex
  split
  · rfl
  · unfold cleanWith
    split
    · rfl
    · obtain ⟨⟨x, t⟩, hres⟩ : ∃ res, cleanLoop ext sp .init s none (intRange sp.dataStarts (scanEnd sp s + 1)) = res :=
        ⟨_, rfl⟩
      have := cleanLoop_notTime hm ha _ hres hb
      rw [hres]
      cases x with
      | error e => exact this
      | ok o =>
        cases o with
        | none => exact this
        | some pos =>
          dsimp only
          split
          · exact this
          · exact this

/-- The two directions agree unless a date is missing. -/
theorem cleanTimeIndex_dates (ext : Ext) {sp sp' : SParams} (h : Turned sp sp') (hm : sp.timeMulticolumn = false)
    (ha : sp.timeAlignment = 0) {e : Int} (he : sp.dataEnds = some e) (h0 : e ≠ 0) (s : Sheet) :
    cleanTimeIndex ext sp' (turned s) = ((cleanTimeIndex ext sp s).1, turned (cleanTimeIndex ext sp s).2) ∨
    ∃ r c pos, timeHeaderCell sp.timeHeader = .ok (r, c) ∧ sp.dataStarts ≤ pos ∧ pos ≤ e ∧
      NotTime ((cleanTimeIndex ext sp s).2.cells pos c) := by
  have hend : hasEnd sp = true := by unfold hasEnd; rw [he]; simpa using h0
  have k0 := (cleanTimeIndex_turned ext h s).1
  obtain ⟨⟨x', t'⟩, hx'⟩ : ∃ r, cleanTimeIndex ext sp' (turned s) = r := ⟨_, rfl⟩
  rw [hx'] at k0
  dsimp only at k0
  subst k0
  rw [hx']
  have h1 : sp'.dataStarts = sp.dataStarts := by rw [h.rest]
  unfold cleanTimeIndex at hx' ⊢
  simp only [accepts_turned h] at hx'
  split at hx'
  · cases hx'
    exact .inl rfl
  · unfold cleanWith at hx' ⊢
    rw [if_neg (by rw [h.horizontal]; decide), scanEnd_turned h, h1, cleanLoop_turned ext h] at hx'
    rw [if_neg (by rw [h.vertical]; decide)] at hx' ⊢
    obtain ⟨⟨x, t⟩, hres⟩ : ∃ res, cleanLoop ext sp .init s none (intRange sp.dataStarts (scanEnd sp s + 1)) = res :=
      ⟨_, rfl⟩
    rw [hres] at hx' ⊢
    cases x with
    | error e => cases hx'; exact .inl rfl
    | ok o =>
      cases o with
      | none => cases hx'; exact .inl rfl
      | some pos =>
        dsimp only at hx' ⊢
        rcases timeHeaderCell_turned h.timeHeader with ⟨r, c, e1, e2⟩ | ⟨e, e1, e2⟩
        · rw [e2] at hx'
          rw [e1] at hx' ⊢
          dsimp only at hx' ⊢
          rcases cleanLoop_visited _ hres with hv | hv
          · cases hv
          obtain ⟨hv1, hv2⟩ := mem_intRange.1 hv
          have hse : scanEnd sp s = e := by unfold scanEnd; rw [he]; simp [h0]
          rw [hse] at hv2
          rcases cleanLoop_reached hm ha hend e1 _ (intRange_nodup _ _) hres (fun _ k => by cases k) with hd | hd
          · left
            unfold timeCell rowOf colOf at hd
            rw [h.vertical] at hd
            have := estimateEnd_turned_dt h (s := t) (r := r) (c := c) (pos := pos) (by simpa using hd)
            rw [this] at hx'
            cases hx'
            rfl
          · right
            unfold timeCell rowOf colOf at hd
            rw [h.vertical] at hd
            exact ⟨r, c, pos, rfl, hv1, by omega, by simpa using hd⟩
        · rw [e2] at hx'
          rw [e1] at hx' ⊢
          cases hx'
          exact .inl rfl

theorem cleanSeries_dates (ext : Ext) : ∀ {rest rest' : List SParams}, List.Forall₂ Turned rest rest' →
    (∀ sp ∈ rest, DatesInLine sp) →
    ∀ {pre pre' : List SParams} {p p' : Params} {s : Sheet} {ends ends' : List (Str × Int)},
    List.Forall₂ Turned pre pre' → HasSeries p (pre ++ rest) → HasSeries p' (pre' ++ rest') →
    EndsTurned ends ends' → ∀ {p1 : Params} {s1 : Sheet},
    cleanSeries ext (List.range' pre.length rest.length) p s ends = (.ok (), p1, s1) →
    (∀ sp ∈ rest, DateInEvery sp s1) →
    ∃ p1', cleanSeries ext (List.range' pre.length rest.length) p' (turned s) ends' = (.ok (), p1', turned s1) ∧
      HasSeries p1 (pre ++ rest) ∧ HasSeries p1' (pre' ++ rest') := by
  intro rest rest' hr
  induction hr with
  | nil =>
    intro _ pre pre' p p' s ends ends' hpre hp hp' _ p1 s1 h _
    rw [List.append_nil] at hp hp'
    cases h
    exact ⟨p', rfl, by rwa [List.append_nil], by rwa [List.append_nil]⟩
  | @cons sp sp' rest rest' hsp hrest ih =>
    intro hin pre pre' p p' s ends ends' hpre hp hp' he p1 s1 h hd
    have hlen : pre'.length = pre.length := hpre.length_eq.symm
    have hi : (pre ++ sp :: rest)[pre.length]? = some sp := by simp
    have hi' : (pre' ++ sp' :: rest')[pre.length]? = some sp' := by rw [← hlen]; simp
    have hthis := hin sp (by simp)
    obtain ⟨e, hends, h0⟩ : ∃ e, sp.dataEnds = some e ∧ e ≠ 0 := by
      obtain ⟨g1, g2⟩ := hthis.given
      cases hh : sp.dataEnds with
      | none => exact absurd hh g1
      | some e => exact ⟨e, rfl, fun k => g2 (by rw [hh, k])⟩
    have hends' : sp'.dataEnds = some e := by rw [hsp.rest]; exact hends
    have ht : (rawValue sp .dataEnds).truthy = true := by
      show (sp.dataEnds.elim PVal.none PVal.int).truthy = true
      rw [hends]
      simpa [PVal.truthy] using h0
    have ht' : (rawValue sp' .dataEnds).truthy = true := by
      show (sp'.dataEnds.elim PVal.none PVal.int).truthy = true
      rw [hends']
      simpa [PVal.truthy] using h0
    rw [List.length_cons, List.range'_succ] at h ⊢
    unfold cleanSeries at h ⊢
    have hth := hsp.timeHeader
    obtain ⟨th, e1⟩ : ∃ th, sp.timeHeader = th := ⟨_, rfl⟩
    obtain ⟨th', e2⟩ : ∃ th, sp'.timeHeader = th := ⟨_, rfl⟩
    rw [e1, e2] at hth
    cases hth with
    | multi _ =>
      rw [header_of_multi hp hi e1] at h
      cases h
    | @single a b hab =>
      rw [header_of_series hp hi e1] at h
      rw [header_of_series hp' hi' e2]
      dsimp only at h ⊢
      have hone : ∀ {stop k t}, cleanOnce ext p s ends pre.length a = (.ok (stop, k), t) →
          (∃ k', cleanOnce ext p' (turned s) ends' pre.length b = (.ok (stop, k'), turned t) ∧ EndsTurned k k') ∨
          ∃ r c pos, timeHeaderCell sp.timeHeader = .ok (r, c) ∧ sp.dataStarts ≤ pos ∧ pos ≤ e ∧
            NotTime (t.cells pos c) := by
        intro stop k t hk
        unfold cleanOnce at hk ⊢
        rw [endOf_turned he hab]
        split at hk
        · cases hk
          exact .inl ⟨_, rfl, he⟩
        · rw [typed_of_series hp hi] at hk
          rw [typed_of_series hp' hi']
          dsimp only at hk ⊢
          rcases cleanTimeIndex_dates ext hsp hthis.single hthis.inLine hends h0 s with k1 | ⟨r, c, pos, k1, k2, k3, k4⟩
          · rw [k1]
            obtain ⟨⟨x, t1⟩, hx⟩ : ∃ r, cleanTimeIndex ext sp s = r := ⟨_, rfl⟩
            rw [hx] at hk ⊢
            cases x with
            | error e => cases hk
            | ok stop1 =>
              dsimp only at hk ⊢
              split at hk
              · cases hk
              · next hs0 =>
                cases hk
                left
                rw [if_neg hs0]
                exact ⟨_, rfl, List.rel_append he (.cons ⟨hab, rfl⟩ .nil)⟩
          · right
            obtain ⟨⟨x, t1⟩, hx⟩ : ∃ r, cleanTimeIndex ext sp s = r := ⟨_, rfl⟩
            rw [hx] at hk k4
            cases x with
            | error e => cases hk
            | ok stop1 =>
              dsimp only at hk
              split at hk
              · cases hk
              · cases hk
                exact ⟨r, c, pos, k1, k2, k3, k4⟩
      obtain ⟨⟨x, t⟩, hx⟩ : ∃ r, cleanOnce ext p s ends pre.length a = r := ⟨_, rfl⟩
      rw [hx] at h
      cases x with
      | error e => cases h
      | ok y =>
        obtain ⟨stop, k⟩ := y
        dsimp only at h
        rw [index_of_series hp .dataEnds hi] at h
        dsimp only at h
        rw [if_pos ht] at h
        rcases hone hx with ⟨k', hk', hkk⟩ | ⟨r, c, pos, k1, k2, k3, k4⟩
        · rw [hk']
          dsimp only
          rw [index_of_series hp' .dataEnds hi']
          dsimp only
          rw [if_pos ht']
          have := ih (fun sp h => hin sp (by simp [h])) (pre := pre ++ [sp]) (pre' := pre' ++ [sp']) (s := t)
            (p := p) (p' := p') (List.rel_append hpre (.cons hsp .nil))
            (by rw [List.append_assoc]; exact hp) (by rw [List.append_assoc]; exact hp') hkk
            (p1 := p1) (s1 := s1)
            (by rw [List.length_append, List.length_singleton]; exact h) (fun sp h => hd sp (by simp [h]))
          rw [List.length_append, List.length_singleton, List.append_assoc, List.append_assoc] at this
          exact this
        · exfalso
          have hkeep : NotTime (s1.cells pos c) := by
            have := cleanSeries_keeps_of (ext := ext) (V := fun u => NotTime (u.cells pos c)) rest (pre ++ [sp])
              (p := p) (s := t) (ends := k) (fun x hx u hu => by
                have hx := hin x (by simp [hx])
                rw [cleanTimeIndex_notTime hx.single hx.inLine hu]
                exact hu) (by rw [List.append_assoc]; exact hp) k4
            rw [List.length_append, List.length_singleton, h] at this
            exact this
          obtain ⟨d, hdt⟩ := hd sp (by simp) r c e pos k1 hends k2 k3
          rw [hdt] at hkeep
          exact hkeep

/-- Cleaning and extraction in both directions when every position has a date. -/
theorem scrape_dates (ext : Ext) {p p' : Params} {sps sps' : List SParams} (hp : HasSeries p sps)
    (hp' : HasSeries p' sps') (h : List.Forall₂ Turned sps sps') (hin : ∀ sp ∈ sps, DatesInLine sp)
    (hw : ∀ sp ∈ sps, WholeCycles sp) {s s1 : Sheet} {p1 : Params} {fs : List Frame}
    (hv : scrape ext p s = (.ok fs, p1, s1)) (hd : ∀ sp ∈ sps, DateInEvery sp s1) :
    ∃ p1', scrape ext p' (turned s) = (.ok fs, p1', turned s1) := by
  unfold scrape at hv ⊢
  obtain ⟨⟨x, q, t⟩, hres⟩ : ∃ r, cleanData ext p s = r := ⟨_, rfl⟩
  rw [hres] at hv
  cases x with
  | error e => cases hv
  | ok u =>
    dsimp only at hv
    have hcells : s1.cells = t.cells := by
      obtain ⟨⟨y, t1⟩, hy⟩ : ∃ r, getData ext q t = r := ⟨_, rfl⟩
      rw [hy] at hv
      cases hv
      exact getData_cells hy
    have hd' : ∀ sp ∈ sps, DateInEvery sp t := by
      intro sp hsp r c e pos k1 k2 k3 k4
      obtain ⟨d, hdt⟩ := hd sp hsp r c e pos k1 k2 k3 k4
      exact ⟨d, by rw [← hcells]; exact hdt⟩
    have hclean : ∃ q', cleanData ext p' (turned s) = (.ok (), q', turned t) ∧ HasSeries q sps ∧ HasSeries q' sps' := by
      unfold cleanData at hres ⊢
      cases h with
      | nil =>
        have e : Params.index (p .timeMulticolumn) 0 = .error .indexError := by rw [hp]; rfl
        rw [e] at hres
        cases hres
      | @cons sp sp' rest rest' hsp hrest =>
        have hi : (sp :: rest)[0]? = some sp := rfl
        have hi' : (sp' :: rest')[0]? = some sp' := rfl
        have hmul : rawValue sp .timeMulticolumn = .bool false := by
          show PVal.bool sp.timeMulticolumn = _
          rw [(hin sp (by simp)).single]
        rw [index_of_series hp .timeMulticolumn hi, hmul] at hres
        rw [index_of_series hp' .timeMulticolumn hi',
          show rawValue sp' .timeMulticolumn = rawValue sp .timeMulticolumn from by rw [hsp.rest]; rfl, hmul]
        dsimp only at hres ⊢
        have hnt : ¬ (PVal.bool false).truthy = true := by simp [PVal.truthy]
        rw [if_neg hnt] at hres ⊢
        have e : Params.len (p .timeHeaderCoord) = .ok (sp :: rest).length := by
          rw [hp]; unfold Params.len; simp
        have e' : Params.len (p' .timeHeaderCoord) = .ok (sp :: rest).length := by
          rw [hp', ← (List.Forall₂.cons hsp hrest).length_eq.symm]; unfold Params.len; simp
        rw [e] at hres
        rw [e']
        dsimp only at hres ⊢
        rw [List.range_eq_range'] at hres ⊢
        exact cleanSeries_dates ext (.cons hsp hrest) hin (pre := []) (pre' := []) .nil hp hp' .nil hres hd'
    obtain ⟨q', hq, hq1, hq2⟩ := hclean
    rw [hq]
    dsimp only
    have hqq1 : List.Forall₂ Turned1 sps sps' := by
      clear hd hd' hin hp hp' hq1 hq2
      induction h with
      | nil => exact .nil
      | cons h1 _ ih => exact .cons ⟨h1, hw _ (by simp)⟩ (ih fun sp hsp => hw sp (by simp [hsp]))
    rw [getData_turned ext hq1 hq2 hqq1 t]
    obtain ⟨⟨y, t1⟩, hy⟩ : ∃ r, getData ext q t = r := ⟨_, rfl⟩
    rw [hy] at hv ⊢
    cases hv
    exact ⟨q', rfl⟩

end Xls
