/-
Lemmas for C115: what is read of a table does not change when rows are added below it.
-/
import Verif.Lemmas.Joined
import Verif.Lemmas.Again
import Verif.Lemmas.Marks
import Verif.Lemmas.GetData3

set_option autoImplicit false

namespace Xls

open Spec

/-! ### The next value of the index -/

theorem accepts_composed_simple {ext : Ext} {f : Str} {curr : Cell} :
    accepts ext .simple true f curr ≠ .ok true := by
  unfold accepts
  cases curr with
  | float x =>
    dsimp only
    cases floatIntStr x <;> simp [acceptsStr]
  | _ => simp [acceptsStr]

theorem parseWith_next (ext : Ext) {p : Parser} {f : Str} {curr : Cell} {last : Option Time} {next next' : Cell}
    (h : (∃ t, curr = .dt t) ∨ p ≠ .simple) :
    parseWith ext p f curr last next = parseWith ext p f curr last next' := by
  rcases h with ⟨t, rfl⟩ | h
  · rfl
  · unfold parseWith
    congr 1
    funext s
    unfold parseStrWith
    cases p <;> first | rfl | exact absurd rfl h

theorem searchParser_next (ext : Ext) {sp : SParams} {curr : Cell} {last : Option Time} {next next' : Cell}
    {old : Option Parser} (h : (∃ t, curr = .dt t) ∨ sp.timeComposed = true) : ∀ ps : List Parser,
    searchParser ext sp curr last next old ps = searchParser ext sp curr last next' old ps
  | [] => rfl
  | p :: ps => by
    unfold searchParser
    split
    · rfl
    · next ha =>
      rw [parseWith_next ext (next' := next') ?_]
      rcases h with h | h
      · exact .inl h
      · refine .inr ?_
        rintro rfl
        rw [h] at ha
        exact accepts_composed_simple ha
    · exact searchParser_next ext h ps

theorem parseTimeValue_next (ext : Ext) {sp : SParams} {parser : Option Parser} {curr : Cell} {last : Option Time}
    {next next' : Cell} (h : (∃ t, curr = .dt t) ∨ (sp.timeComposed = true ∧ parser ≠ some .simple)) :
    parseTimeValue ext sp parser curr last next = parseTimeValue ext sp parser curr last next' := by
  have h1 : (∃ t, curr = .dt t) ∨ sp.timeComposed = true := h.imp id And.left
  unfold parseTimeValue
  cases parser with
  | none => exact searchParser_next ext h1 _
  | some p =>
    dsimp only
    rw [parseWith_next ext (next' := next') (h.imp id fun k e => k.2 (by rw [e])),
      searchParser_next ext (next' := next') h1]

/-- Composed dates are never read with the parser of simple ones. -/
theorem searchParser_not_simple {ext : Ext} {sp : SParams} {curr : Cell} {last : Option Time} {next : Cell}
    {old : Option Parser} (hc : sp.timeComposed = true) (ho : old ≠ some .simple) : ∀ ps : List Parser,
    (searchParser ext sp curr last next old ps).2 ≠ some .simple
  | [] => ho
  | p :: ps => by
    unfold searchParser
    split
    · exact ho
    · next ha =>
      rintro h
      cases h
      rw [hc] at ha
      exact accepts_composed_simple ha
    · exact searchParser_not_simple hc ho ps

theorem parseTimeValue_not_simple {ext : Ext} {sp : SParams} {curr : Cell} {last : Option Time} {next : Cell}
    {old : Option Parser} (hc : sp.timeComposed = true) (ho : old ≠ some .simple) :
    (parseTimeValue ext sp old curr last next).2 ≠ some .simple := by
  unfold parseTimeValue
  split
  · exact searchParser_not_simple hc ho _
  · split
    · exact ho
    · exact ho
    · exact ho
    · exact searchParser_not_simple hc ho _

theorem correctStep_parser {sp : SParams} {st st' : CState} {t : Time} {o : Option Time}
    (h : correctStep sp st t = .ok (o, st')) : st'.parser = st.parser := by
  unfold correctStep at h
  repeat' split at h
  all_goals first | (cases h; rfl) | cases h

theorem steps_not_simple {ext : Ext} {sp : SParams} {st st' : CState} {s s' : Sheet} {p q : Int}
    (hc : sp.timeComposed = true) (ho : st.parser ≠ some .simple) (h : Steps ext sp st s p st' s' q) :
    st'.parser ≠ some .simple := by
  induction h with
  | refl => exact ho
  | @tail sta sa qa stb sb h hs ih =>
    obtain ⟨hr, hc', curr, next, s0, -, -, -, -, hn⟩ := cleanStep_next hs
    have hp := fun last => parseTimeValue_not_simple (ext := ext) (sp := sp) (curr := curr) (last := last) (next := next) hc ih
    cases hn with
    | write t0 t p st1 must parsed corr fresh hst hs' =>
      rw [hst]
      show st1.parser ≠ _
      rw [correctStep_parser corr]
      have h0 := hp sta.last
      rw [parsed] at h0
      exact h0
    | blanked p e must parsed out hst hs' =>
      rw [hst]
      have h0 := hp sta.last
      rw [parsed] at h0
      exact h0
    | skipped must few may hst hs' =>
      rw [hst]
      exact ih

theorem cleanValue_next_free (ext : Ext) {sp : SParams} {st : CState} {s : Sheet} {r c : Int} {curr next next' : Cell}
    (h : (∃ t, curr = .dt t) ∨ (sp.timeComposed = true ∧ st.parser ≠ some .simple)) :
    cleanValue ext sp st s r c curr next = cleanValue ext sp st s r c curr next' := by
  unfold cleanValue
  dsimp only
  rw [parseTimeValue_next ext (next' := next') h]

/-- A step whose value does not need the next one. -/
theorem cleanStep_last {ext : Ext} {sp : SParams} {st : CState} {s s' s2 s2' : Sheet} {q : Int} {x y : StepEnd}
    (ha : AgreeAt sp.alignment s s2 q)
    (hfree : (∃ t, (getTimeValue ext sp q s).1 = .ok (.dt t)) ∨ (sp.timeComposed = true ∧ st.parser ≠ some .simple))
    (h : cleanStep ext sp st s q = (x, s')) (h2 : cleanStep ext sp st s2 q = (y, s2')) (hx : ∀ e, x ≠ .raise e)
    (hy : ∀ e, y ≠ .raise e) :
    y = x ∧ ∀ pos, AgreeAt sp.alignment s s2 pos → AgreeAt sp.alignment s' s2' pos := by
  unfold cleanStep at h h2
  have e1 := getTimeValue_congr_at ext sp q ha
  have f1 := getTimeValue_cells ext sp q s
  have g1 := getTimeValue_cells ext sp q s2
  generalize getTimeValue ext sp q s = x1 at *
  generalize getTimeValue ext sp q s2 = y1 at *
  obtain ⟨v1, t1⟩ := x1
  obtain ⟨w1, u1⟩ := y1
  simp only at e1 f1 g1 hfree
  subst e1
  cases v1 with
  | error e =>
    cases h
    exact absurd rfl (hx e)
  | ok curr =>
    simp only at h h2
    have f2 := getTimeValue_cells ext sp (q + 1) t1
    have g2 := getTimeValue_cells ext sp (q + 1) u1
    generalize getTimeValue ext sp (q + 1) t1 = x2 at *
    generalize getTimeValue ext sp (q + 1) u1 = y2 at *
    obtain ⟨v2, t2⟩ := x2
    obtain ⟨w2, u2⟩ := y2
    simp only at f2 g2
    have F := f2.trans f1
    have G := g2.trans g1
    cases v2 with
    | error e =>
      cases h
      exact absurd rfl (hx e)
    | ok next =>
      cases w2 with
      | error e =>
        cases h2
        exact absurd rfl (hy e)
      | ok next2 =>
        simp only at h h2
        split at h
        · next hh =>
          cases h
          exact absurd rfl (hx _)
        · next hr hc hh =>
          have hf : (∃ t, curr = .dt t) ∨ (sp.timeComposed = true ∧ st.parser ≠ some .simple) :=
            hfree.imp (fun ⟨t, ht⟩ => ⟨t, by injection ht⟩) id
          rw [hh] at h2
          dsimp only at h2
          rw [cleanValue_next_free ext (next' := next) hf] at h2
          obtain ⟨ch, hs', hsim⟩ := cleanValue_sim h
          rw [hsim] at h2
          injection h2 with h3 h4
          refine ⟨h3.symm, fun pos hp => ?_⟩
          rw [hs', ← h4]
          have hp' : AgreeAt sp.alignment
              (t2.touch (axisCell sp.alignment hr hc q).1 (axisCell sp.alignment hr hc q).2)
              (u2.touch (axisCell sp.alignment hr hc q).1 (axisCell sp.alignment hr hc q).2) pos :=
            hp.of_cells F G
          cases ch with
          | none => exact hp'
          | some v => exact hp'.set _ _ _

/-! ### The loop -/

theorem steps_unique {ext : Ext} {sp : SParams} {st st1 st2 : CState} {s s1 s2 : Sheet} {p q q' : Int}
    (h1 : Steps ext sp st s p st1 s1 q) (h2 : Steps ext sp st s p st2 s2 q') (hq : q = q') : st1 = st2 ∧ s1 = s2 := by
  induction h1 generalizing st2 s2 q' with
  | refl =>
    cases h2 with
    | refl => exact ⟨rfl, rfl⟩
    | tail h hs =>
      have := h.le
      omega
  | tail h hs ih =>
    cases h2 with
    | refl =>
      have := h.le
      omega
    | tail h' hs' =>
      obtain ⟨e1, e2⟩ := ih h' (by omega)
      subst e1
      subst e2
      have e3 := (Int.add_left_inj 1).1 hq
      subst e3
      rw [hs] at hs'
      injection hs' with h3 h4
      injection h3 with h3
      exact ⟨h3, h4⟩

/-- Rows gone through are not changed any more. -/
theorem steps_frame_before {ext : Ext} {sp : SParams} {st st' : CState} {s s' : Sheet} {p q : Int}
    (h : Steps ext sp st s p st' s' q) {pos : Int} (hp : pos < p) (hr' hc' : Int) :
    timeCell s' sp.alignment hr' hc' pos = timeCell s sp.alignment hr' hc' pos := by
  cases h with
  | refl => rfl
  | @tail st1 s1 q1 st2 s2 h hs =>
    obtain ⟨hr, hc, _, _, _, hh, _⟩ := cleanStep_next hs
    rcases steps_frame hh (.tail h hs) (rowOf sp.alignment hr' pos) (colOf sp.alignment hc' pos) with
      h' | ⟨⟨pos', a1, a2, a3⟩, _⟩
    · exact h'
    · exfalso
      have : pos' = pos := by
        unfold IsAt rowOf colOf at a3
        split at a3
        · exact a3.1.symm
        · exact a3.2.symm
      omega

/-- What a successful cleaning of an index without offset tells: the positions before the end were gone through, and
the last one was either gone through or stopped the loop. -/
theorem cleanTimeIndex_ends {ext : Ext} {sp : SParams} {s s1 : Sheet} {e : Int} (hta : sp.timeAlignment = 0)
    (h : cleanTimeIndex ext sp s = (.ok e, s1)) :
    ∃ hr hc, timeHeaderCell sp.timeHeader = .ok (hr, hc) ∧ sp.dataStarts < e ∧
      (∃ t, timeCell s1 sp.alignment hr hc e = .dt t) ∧
      ∃ st1 sb q, Steps ext sp .init s sp.dataStarts st1 sb q ∧ s1.cells = sb.cells ∧
        ((q = scanEnd sp s + 1 ∧ e < q ∧ estimateEnd sp s1 hr hc (q - 1) = .ok e) ∨
         (e ≤ q ∧ estimateEnd sp s1 hr hc q = .ok e ∧ cleanStep ext sp st1 sb q = (.stop, s1))) := by
  by_cases hf : sp.frequency = []
  · rw [cleanTimeIndex_empty s hf] at h
    cases h
  rw [cleanTimeIndex_accepted s hf] at h
  obtain ⟨st1, sb, q, h1, h2⟩ := cleanWith_end ext sp s
  have hc := h2.cells
  rw [h] at h2 hc
  dsimp only at h2 hc
  have hle := h1.le
  obtain ⟨res, hres⟩ : ∃ res : Except Err Int, Except.ok e = res := ⟨_, rfl⟩
  rw [hres] at h2
  cases h2 with
  | error er s' hs hq => cases hres
  | done hr hc' hh hq hq' =>
    obtain ⟨k1, k2, k3, k4, k5, k6⟩ := estimateEnd_ok (by omega) hres.symm
    rw [hta, Int.add_zero] at k3 k4 k5 k6
    refine ⟨hr, hc', hh, k1, ?_, st1, _, q, h1, hc, .inl ⟨hq, by omega, hres.symm⟩⟩
    rcases k6 with k6 | k6
    · exact k6
    · omega
  | stop hr hc' hh s' hs hq hstop =>
    obtain ⟨k1, k2, k3, k4, k5, k6⟩ := estimateEnd_ok (by omega) hres.symm
    rw [hta, Int.add_zero] at k3 k4 k5 k6
    refine ⟨hr, hc', hh, k1, ?_, st1, sb, q, h1, hc, .inr ⟨by omega, hres.symm, hstop⟩⟩
    rcases k6 with k6 | k6
    · exact k6
    · omega

theorem agreeAt_vertical {s s2 : Sheet} {pos : Int} :
    AgreeAt .vertical s s2 pos ↔ ∀ c, s.cells pos c = s2.cells pos c := by
  unfold AgreeAt timeCell rowOf colOf
  simp

/-- A date is read at a position where there is one. -/
theorem cleanStep_reads_date {ext : Ext} {sp : SParams} {st : CState} {s u : Sheet} {q : Int} {x : StepEnd}
    (hal : sp.alignment = .vertical) {th : Str} {r c : Int} {t : Time} (hth : sp.timeHeader = .single th)
    (hco : coordOf th = .ok (r, c)) (hd : s.cells q c = .dt t) (h : cleanStep ext sp st s q = (x, u))
    (hx : ∀ e, x ≠ .raise e) : ∃ t, (getTimeValue ext sp q s).1 = .ok (.dt t) := by
  have key : ∀ v, (getTimeValue ext sp q s).1 = .ok v → v = .dt t := by
    intro v hv
    unfold getTimeValue at hv
    rw [hth] at hv
    cases hm : sp.timeMulticolumn with
    | true => rw [hm] at hv; cases hv
    | false =>
      rw [hm] at hv
      dsimp only at hv
      rw [hco, hal] at hv
      dsimp only at hv
      by_cases hb : 1 ≤ (axisCell .vertical r c q).1 ∧ 1 ≤ (axisCell .vertical r c q).2
      · rw [if_pos hb] at hv
        injection hv with hv
        rw [← hv]
        exact hd
      · rw [if_neg hb] at hv
        cases hv
  cases hg : (getTimeValue ext sp q s).1 with
  | ok v => exact ⟨t, by rw [key v hg]⟩
  | error e =>
    exfalso
    unfold cleanStep at h
    obtain ⟨⟨a, b⟩, hg'⟩ : ∃ z, getTimeValue ext sp q s = z := ⟨_, rfl⟩
    rw [hg'] at h hg
    dsimp only at hg
    subst hg
    cases h
    exact hx e rfl

/-- The end found after rows were added is not before the one found at first, and up to the first end the cleaned
worksheets are the same. -/
theorem cleaned_agree {ext : Ext} {sp : SParams} {s s' s1 s1' : Sheet} {e e' : Int} (hal : sp.alignment = .vertical)
    (hta : sp.timeAlignment = 0) (hno : sp.dataEnds = none) (h : cleanTimeIndex ext sp s = (.ok e, s1))
    (h' : cleanTimeIndex ext sp s' = (.ok e', s1')) (hag : ∀ r c, r ≤ e → s'.cells r c = s.cells r c)
    (hmax : e ≤ s'.maxRow)
    (hfree : sp.timeComposed = true ∨
      ∃ th r c, sp.timeHeader = .single th ∧ coordOf th = .ok (r, c) ∧ ∃ t, s.cells e c = .dt t) :
    e ≤ e' ∧ ∀ r c, r ≤ e → s1'.cells r c = s1.cells r c := by
  obtain ⟨hr, hc, hh, hlt, ⟨t, ht⟩, st1, sb, q, hst, hsb, hend⟩ := cleanTimeIndex_ends hta h
  obtain ⟨hr', hc', hh', hlt', -, st1', sb', q', hst', hsb', hend'⟩ := cleanTimeIndex_ends hta h'
  rw [hh] at hh'
  injection hh' with hh'
  injection hh' with e1 e2
  subst e1
  subst e2
  have hscan : scanEnd sp s' = s'.maxRow := by
    unfold scanEnd
    rw [hno, hal]
    rfl
  have ha : ∀ pos, pos ≤ e → AgreeAt sp.alignment s s' pos := by
    intro pos hp
    rw [hal, agreeAt_vertical]
    intro c
    exact (hag pos c hp).symm
  -- up to the position of the end
  have upto : ∃ sta sa y u, Steps ext sp .init s sp.dataStarts sta sa e ∧ cleanStep ext sp sta sa e = (y, u) ∧
      (∀ er, y ≠ .raise er) ∧
      ((y = .stop ∧ s1 = u) ∨ ∃ stb, y = .next stb ∧ Steps ext sp stb u (e + 1) st1 sb q) := by
    by_cases hq : e < q
    · obtain ⟨sta, sa, stb, u, a1, a2, a3⟩ := steps_at hst (by omega : sp.dataStarts ≤ e) hq
      exact ⟨sta, sa, _, u, a1, a2, by simp, .inr ⟨stb, rfl, a3⟩⟩
    · rcases hend with ⟨-, k, -⟩ | ⟨k, -, hstop⟩
      · exact absurd k hq
      · have : q = e := by omega
        subst this
        exact ⟨st1, sb, _, s1, hst, hstop, by simp, .inl ⟨rfl, rfl⟩⟩
  obtain ⟨sta, sa, y, u, hsa, hstep, hy, hcase⟩ := upto
  obtain ⟨sa', hsa', hag'⟩ := steps_sim ha hsa (le_refl _)
  have hfree' : (∃ t, (getTimeValue ext sp e sa).1 = .ok (.dt t)) ∨
      (sp.timeComposed = true ∧ sta.parser ≠ some .simple) := by
    rcases hfree with hf | ⟨th, r, c, h1, h2, t0, h3⟩
    · exact .inr ⟨hf, steps_not_simple hf (by simp [CState.init]) hsa⟩
    · refine .inl (cleanStep_reads_date hal h1 h2 (t := t0) ?_ hstep hy)
      have := steps_frame_pos hsa (le_refl e) r c
      unfold timeCell rowOf colOf at this
      simp only [hal, if_true] at this
      rw [this, h3]
  -- the second loop comes to the same position
  have hq' : e ≤ q' := by
    by_contra hlt2
    have hlt2 : q' < e := by omega
    rcases hend' with ⟨k, -, -⟩ | ⟨-, -, hstop⟩
    · omega
    · obtain ⟨x1, x2, x3, x4, b1, b2, -⟩ := steps_at hsa' hst'.le hlt2
      obtain ⟨e1, e2⟩ := steps_unique b1 hst' rfl
      subst e1
      subst e2
      rw [b2] at hstop
      cases hstop
  have upto' : ∃ y' u', cleanStep ext sp sta sa' e = (y', u') ∧ (∀ er, y' ≠ .raise er) ∧
      ((y' = .stop ∧ s1' = u' ∧ q' = e) ∨ ∃ stb', y' = .next stb' ∧ e < q' ∧ Steps ext sp stb' u' (e + 1) st1' sb' q') := by
    by_cases hq : e < q'
    · obtain ⟨x1, x2, stb, u, a1, a2, a3⟩ := steps_at hst' (by omega : sp.dataStarts ≤ e) hq
      obtain ⟨e1, e2⟩ := steps_unique a1 hsa' rfl
      subst e1
      subst e2
      exact ⟨_, u, a2, by simp, .inr ⟨stb, rfl, hq, a3⟩⟩
    · have hqe : q' = e := by omega
      subst hqe
      obtain ⟨e1, e2⟩ := steps_unique hst' hsa' rfl
      subst e1
      subst e2
      rcases hend' with ⟨k, -, -⟩ | ⟨-, -, hstop⟩
      · omega
      · exact ⟨_, s1', hstop, by simp, .inl ⟨rfl, rfl, rfl⟩⟩
  obtain ⟨y', u', hstep', hy', hcase'⟩ := upto'
  obtain ⟨hyy, hagu⟩ := cleanStep_last (hag' e (le_refl _)) hfree' hstep hstep' hy hy'
  have fin1 : ∀ pos, pos ≤ e → AgreeAt sp.alignment u s1 pos := by
    intro pos hp
    rcases hcase with ⟨-, k⟩ | ⟨stb, -, k⟩
    · rw [k]
      intro _ _
      rfl
    · intro a b
      have := steps_frame_before k (show pos < e + 1 by omega) a b
      unfold timeCell at this ⊢
      rw [hsb, this]
  have fin2 : ∀ pos, pos ≤ e → AgreeAt sp.alignment u' s1' pos := by
    intro pos hp
    rcases hcase' with ⟨-, k, -⟩ | ⟨stb, -, -, k⟩
    · rw [k]
      intro _ _
      rfl
    · intro a b
      have := steps_frame_before k (show pos < e + 1 by omega) a b
      unfold timeCell at this ⊢
      rw [hsb', this]
  have hfin : ∀ r c, r ≤ e → s1'.cells r c = s1.cells r c := by
    intro r c hr
    have h1 := fin1 r hr
    have h2 := fin2 r hr
    have h3 := hagu r (hag' r hr)
    rw [hal, agreeAt_vertical] at h1 h2 h3
    rw [← h2 c, ← h3 c, h1 c]
  refine ⟨?_, hfin⟩
  have htd : s1'.cells e hc = .dt t := by
    unfold timeCell rowOf colOf at ht
    simp only [hal, if_true] at ht
    rw [hfin e hc (le_refl _), ht]
  have htd' : timeCell s1' sp.alignment hr hc e = .dt t := by
    unfold timeCell rowOf colOf
    simp only [hal, if_true]
    exact htd
  by_contra hlt2
  have hlt2 : e' < e := by omega
  have main : ∀ pos, e ≤ pos → estimateEnd sp s1' hr hc pos = .ok e' → False := by
    intro pos hp he
    obtain ⟨-, -, -, -, k5, -⟩ := estimateEnd_ok (by omega) he
    exact k5 e (by omega) hp t htd'
  rcases hend' with ⟨k, k1, k2⟩ | ⟨k1, k2, -⟩
  · exact main _ (by omega) k2
  · exact main _ hq' k2

/-! ### Values -/

theorem rowEntries_append {ext : Ext} {sp : SParams} {s : Sheet} {hr hc : Int} : ∀ {is js : List Int} {zs : List Num},
    rowEntries ext sp s hr hc (is ++ js) = .ok zs →
    ∃ xs ys, rowEntries ext sp s hr hc is = .ok xs ∧ zs = xs ++ ys
  | [], js, zs, h => ⟨[], zs, rfl, rfl⟩
  | i :: is, js, zs, h => by
    rw [List.cons_append] at h
    unfold rowEntries at h ⊢
    cases hi : rowEntry ext sp s hr hc i with
    | error e => rw [hi] at h; cases h
    | ok x =>
      rw [hi] at h
      dsimp only at h
      split at h
      · cases h
      next ws hw =>
        cases h
        obtain ⟨xs, ys, h1, rfl⟩ := rowEntries_append hw
        refine ⟨x.toList ++ xs, ys, ?_, by simp⟩
        dsimp only
        rw [h1]

theorem rowEntry_agree {ext : Ext} {sp : SParams} {s s' : Sheet} {hr hc i : Int} {d d' : Option Int}
    (hal : sp.alignment = .vertical) (hta : sp.timeAlignment = 0) (h : ∀ c, s'.cells i c = s.cells i c) :
    rowEntry ext { sp with dataEnds := d' } s' hr hc i = rowEntry ext { sp with dataEnds := d } s hr hc i := by
  have hread : ∀ c, s'.read i c = s.read i c := by
    intro c
    unfold Sheet.read
    rw [h c]
  have hadd : ∀ nv, toBeAdded { sp with dataEnds := d' } s' nv i = toBeAdded { sp with dataEnds := d } s nv i := by
    intro nv
    obtain ⟨res, hres⟩ : ∃ x, nonContHeader { sp with dataEnds := d } = x := ⟨_, rfl⟩
    have hres' : nonContHeader { sp with dataEnds := d' } = res := hres
    have hax : ∀ hr hc, axisCell sp.alignment hr hc (i + sp.timeAlignment) = (i, hc) := by
      intro hr hc
      rw [hal, hta, Int.add_zero]
      rfl
    unfold toBeAdded
    rw [hres, hres']
    cases res with
    | error e => rfl
    | ok rc => dsimp only; rw [hax]; dsimp only; rw [hread]
  have hax : axisCell sp.alignment hr hc i = (i, hc) := by
    rw [hal]
    rfl
  unfold rowEntry
  dsimp only
  rw [hax]
  dsimp only
  rw [hread]
  cases s.read i hc with
  | error e => rfl
  | ok v =>
    dsimp only
    rw [show handleValue ext { sp with dataEnds := d' } v = handleValue ext { sp with dataEnds := d } v from rfl]
    cases handleValue ext { sp with dataEnds := d } v with
    | error e => rfl
    | ok nv => dsimp only; rw [hadd]

theorem rowEntries_agree {ext : Ext} {sp : SParams} {s s' : Sheet} {hr hc : Int} {d d' : Option Int}
    (hal : sp.alignment = .vertical) (hta : sp.timeAlignment = 0) : ∀ {is : List Int},
    (∀ i ∈ is, ∀ c, s'.cells i c = s.cells i c) →
    rowEntries ext { sp with dataEnds := d' } s' hr hc is = rowEntries ext { sp with dataEnds := d } s hr hc is
  | [], _ => rfl
  | i :: is, h => by
    unfold rowEntries
    rw [rowEntry_agree (d := d) hal hta (h i (by simp)),
      rowEntries_agree (d := d) hal hta fun j hj => h j (List.mem_cons_of_mem _ hj)]

theorem fillValues_prefix {ext : Ext} {freq : Str} : ∀ {l m : List (Cell × Num)} {exp : Option Time} {xs ys : List Num},
    l <+: m → fillValues ext freq l exp = .ok xs → fillValues ext freq m exp = .ok ys → xs <+: ys
  | [], m, exp, xs, ys, _, h1, h2 => by
    unfold fillValues at h1
    cases h1
    exact List.nil_prefix
  | (c, x) :: l, m, exp, xs, ys, hp, h1, h2 => by
    obtain ⟨m', rfl⟩ := hp
    rw [List.cons_append] at h2
    unfold fillValues at h1 h2
    cases hone : fillOne ext freq c exp with
    | error e => rw [hone] at h1; cases h1
    | ok nt =>
      rw [hone] at h1 h2
      dsimp only at h1 h2
      split at h1
      · cases h1
      next xs' hx =>
        split at h2
        · cases h2
        next ys' hy =>
          cases h1
          cases h2
          have := fillValues_prefix (List.prefix_append l m') hx hy
          obtain ⟨z, rfl⟩ := this
          exact ⟨z, by simp⟩

theorem zip_prefix {α β : Type} : ∀ {a a' : List α} {b b' : List β}, a <+: a' → b <+: b' → a.zip b <+: a'.zip b'
  | [], _, _, _, _, _ => by simp
  | _ :: _, _, [], _, _, _ => by simp
  | x :: a, a', y :: b, b', ⟨u, hu⟩, ⟨v, hv⟩ => by
    subst hu
    subst hv
    simp only [List.cons_append, List.zip_cons_cons]
    exact (List.prefix_cons_inj _).2 (zip_prefix ⟨u, rfl⟩ ⟨v, rfl⟩)

theorem finish_prefix {ext : Ext} {sp : SParams} {s s' : Sheet} {e e' : Int} {d d' : Option Int} {xs ys vs vs' : List Num}
    (hal : sp.alignment = .vertical) (hf : sp.frequency.length = 1) (hd : sp.dataStarts ≤ e + 1) (hle : e ≤ e')
    (hag : ∀ r c, r ≤ e → s'.cells r c = s.cells r c)
    (h1 : finish ext { sp with dataEnds := d } s e xs = .ok [vs])
    (h2 : finish ext { sp with dataEnds := d' } s' e' (xs ++ ys) = .ok [vs']) : vs <+: vs' := by
  have plain : ∀ {xs zs vs vs' : List Num}, xs <+: zs → (dealt sp.frequency xs).map Prod.snd = [vs] →
      (dealt sp.frequency zs).map Prod.snd = [vs'] → vs <+: vs' := by
    intro xs zs vs vs' hp k1 k2
    rw [dealt_single_snd hf] at k1 k2
    split at k1
    · cases k1
    · split at k2
      · cases k2
      · cases k1
        cases k2
        exact hp
  unfold finish at h1 h2
  dsimp only at h1 h2
  split at h1
  next hm =>
    rw [if_pos hm] at h2
    split at h1
    · cases h1
    next b hb =>
      rw [hb] at h2
      dsimp only at h2
      split at h1
      next hi =>
        rw [if_pos hi] at h2
        split at h1
        · cases h1
        next hx =>
          rw [if_neg (by simp [hx])] at h2
          split at h1
          · cases h1
          next tr tc hth =>
            rw [hth] at h2
            dsimp only at h2
            split at h1
            · cases h1
            next zs hz =>
              split at h2
              · cases h2
              next zs' hz' =>
                cases h1
                cases h2
                refine fillValues_prefix (zip_prefix ?_ (List.prefix_append _ _)) hz hz'
                rw [← intRange_map_cells, ← intRange_map_cells,
                  intRange_split (b := e + 1) hd (by omega : e + 1 ≤ e' + 1), List.map_append]
                refine ⟨(intRange (e + 1) (e' + 1)).map (timeCell s' sp.alignment tr tc), ?_⟩
                congr 1
                refine List.map_congr_left fun i hi => ?_
                rw [mem_intRange] at hi
                unfold timeCell rowOf colOf
                simp only [hal, if_true]
                exact (hag i tc (by omega)).symm
      next hi =>
        rw [if_neg hi] at h2
        exact plain (List.prefix_append _ _) (Except.ok.inj h1) (Except.ok.inj h2)
  next hm =>
    rw [if_neg hm] at h2
    exact plain (List.prefix_append _ _) (Except.ok.inj h1) (Except.ok.inj h2)

theorem getName_agree {ext : Ext} {sp : SParams} {s s' : Sheet} {e : Int} {d d' : Option Int}
    (hag : ∀ r c, r ≤ e → s'.cells r c = s.cells r c)
    (hh : ∀ coord ∈ sp.headerCoord :: sp.composedHeaders.getD [], ∀ r c, coordOf coord = .ok (r, c) → r ≤ e) :
    getName ext { sp with dataEnds := d' } s' = getName ext { sp with dataEnds := d } s := by
  have hcell : ∀ coord ∈ sp.headerCoord :: sp.composedHeaders.getD [], cellAt s' coord = cellAt s coord := by
    intro coord hc
    unfold cellAt
    cases h : coordOf coord with
    | error e => rfl
    | ok rc => dsimp only; rw [hag _ _ (hh coord hc _ _ h)]
  have hparts : ∀ l : List Str, (∀ x ∈ l, x ∈ sp.headerCoord :: sp.composedHeaders.getD []) →
      composedParts ext s' l = composedParts ext s l := by
    intro l
    induction l with
    | nil => intro _; rfl
    | cons x l ih =>
      intro h
      unfold composedParts
      rw [hcell x (h x (by simp)), ih fun y hy => h y (List.mem_cons_of_mem _ hy)]
  unfold getName
  dsimp only
  rw [hcell _ (by simp), hparts _ fun x hx => List.mem_cons_of_mem _ hx]

/-- Where the end is later the name is the same and the values begin with those of before. -/
theorem getSeries_prefix {ext : Ext} {sp : SParams} {s s' : Sheet} {e e' : Int} {c c' : Str × List Num}
    (hal : sp.alignment = .vertical) (hta : sp.timeAlignment = 0) (hf : sp.frequency.length = 1)
    (hd : sp.dataStarts ≤ e) (hle : e ≤ e') (hag : ∀ r c, r ≤ e → s'.cells r c = s.cells r c)
    (hh : ∀ coord ∈ sp.headerCoord :: sp.composedHeaders.getD [], ∀ r c, coordOf coord = .ok (r, c) → r ≤ e)
    (h1 : getSeries ext { sp with dataEnds := some e } s = .ok [c])
    (h2 : getSeries ext { sp with dataEnds := some e' } s' = .ok [c']) : c'.1 = c.1 ∧ c.2 <+: c'.2 := by
  unfold getSeries at h1 h2
  rw [getName_agree (d := some e) hag hh] at h2
  cases hn : getName ext { sp with dataEnds := some e } s with
  | error er => rw [hn] at h1; cases h1
  | ok name =>
    rw [hn] at h1 h2
    dsimp only at h1 h2
    have get1 : ∀ {sp : SParams} {s : Sheet} {c : Str × List Num}, (match getValues ext sp s with
        | .error e => (.error e : Except Err (List (Str × List Num)))
        | .ok vss => .ok (vss.map fun vs => (name, vs))) = .ok [c] → c.1 = name ∧ getValues ext sp s = .ok [c.2] := by
      intro sp s c h
      split at h
      · cases h
      next vss hv =>
        injection h with h
        match vss, h with
        | [v], h =>
          rw [List.map_cons, List.map_nil, List.singleton_inj] at h
          rw [← h]
          exact ⟨rfl, hv⟩
    obtain ⟨n1, v1⟩ := get1 h1
    obtain ⟨n2, v2⟩ := get1 h2
    refine ⟨by rw [n1, n2], ?_⟩
    obtain ⟨hr, hc, hco, hpos⟩ : ∃ hr hc, coordOf sp.headerCoord = .ok (hr, hc) ∧ 1 ≤ sp.dataStarts := by
      unfold getValues at v1
      rw [if_neg (by rw [hal]; simp)] at v1
      dsimp only at v1
      split at v1
      · cases v1
      next hr hc hco =>
        refine ⟨hr, hc, hco, ?_⟩
        rw [intRange_cons (show sp.dataStarts < e + 1 by omega)] at v1
        unfold valuesLoop at v1
        dsimp only at v1
        rw [hal] at v1
        dsimp only [axisCell] at v1
        by_contra hneg
        rw [show s.read sp.dataStarts hc = .error .valueError from by
          unfold Sheet.read
          rw [if_neg (fun k => hneg k.1)]] at v1
        cases v1
    have hne : sp.frequency ≠ [] := by
      intro h0
      rw [h0] at hf
      cases hf
    have d1 : DataCells { sp with dataEnds := some e } hr hc e := ⟨hco, .inl hal, hpos, rfl⟩
    have d2 : DataCells { sp with dataEnds := some e' } hr hc e' := ⟨hco, .inl hal, hpos, rfl⟩
    rw [getValues_eq d1 hne] at v1
    rw [getValues_eq d2 hne] at v2
    dsimp only at v1 v2
    split at v1
    · cases v1
    next xs hx =>
      split at v2
      · cases v2
      next zs hz =>
        rw [intRange_split (b := e + 1) (by omega : sp.dataStarts ≤ e + 1) (by omega : e + 1 ≤ e' + 1)] at hz
        obtain ⟨xs', ys, hx', rfl⟩ := rowEntries_append hz
        rw [rowEntries_agree (s := s) (d := some e) hal hta (by
          intro i hi c
          rw [mem_intRange] at hi
          exact hag i c (by omega)), hx] at hx'
        cases hx'
        exact finish_prefix hal hf (by omega) hle hag v1 v2

/-! ### Ranges -/

theorem rangeFrom_comparable {o : Offset} {b b' : Time} : ∀ {n n' : Nat} {a : Time} {xs ys : List Time},
    rangeFrom o b n a = .ok xs → rangeFrom o b' n' a = .ok ys → xs <+: ys ∨ ys <+: xs
  | 0, _, _, xs, ys, h, _ => by
    unfold rangeFrom at h
    cases h
    exact .inl List.nil_prefix
  | _ + 1, 0, _, xs, ys, _, h => by
    unfold rangeFrom at h
    cases h
    exact .inr List.nil_prefix
  | n + 1, n' + 1, a, xs, ys, h, h' => by
    unfold rangeFrom at h h'
    split at h
    · split at h'
      · split at h
        · cases h
        next t' ht =>
          rw [ht] at h'
          dsimp only at h'
          split at h
          · cases h
          next us hu =>
            split at h'
            · cases h'
            next ws hw =>
              cases h
              cases h'
              exact (rangeFrom_comparable hu hw).imp (List.prefix_cons_inj _).2 (List.prefix_cons_inj _).2
      · cases h'
        exact .inr List.nil_prefix
    · cases h
      exact .inl List.nil_prefix

theorem dateRange_comparable {ext : Ext} {a b b' : Cell} {freq : Str} {pr pr' : PRange}
    (h : dateRange ext a b freq = .ok pr) (h' : dateRange ext a b' freq = .ok pr') :
    pr'.freqstr = pr.freqstr ∧ (pr.index <+: pr'.index ∨ pr'.index <+: pr.index) := by
  unfold dateRange at h h'
  split at h
  · cases h
  next name o ho =>
    rw [ho] at h'
    dsimp only at h'
    split at h
    · cases h
    · cases h
    next ta tb hta htb =>
      rw [hta] at h'
      split at h'
      · cases h'
      · cases h'
      next ta' tb' hta' htb' =>
        cases hta'
        split at h
        · cases h
        next a' ha' =>
          rw [ha'] at h'
          dsimp only at h h'
          split at h
          · cases h
          next ts hts =>
            split at h'
            · cases h'
            next ts' hts' =>
              cases h
              cases h'
              exact ⟨rfl, rangeFrom_comparable hts hts'⟩

theorem seriesRanges_comparable {ext : Ext} {s s' : Sheet} {freq : Str} {start e e' : Int} {th : Str} {pr pr' : PRange}
    (hf : freq.length = 1) (hag : ∀ c, s'.cells start c = s.cells start c)
    (h : seriesRanges ext s freq start th e 0 .vertical = .ok [pr])
    (h' : seriesRanges ext s' freq start th e' 0 .vertical = .ok [pr']) :
    pr'.freqstr = pr.freqstr ∧ (pr.index <+: pr'.index ∨ pr'.index <+: pr.index) := by
  unfold seriesRanges singleRanges at h h'
  rw [if_pos hf] at h h'
  simp only [reduceCtorEq, if_false] at h h'
  split at h
  · cases h
  next hr hc hco =>
    rw [hco] at h'
    dsimp only [axisCell] at h h'
    rw [Int.add_zero, Int.add_zero] at h h'
    have hread : s'.read start hc = s.read start hc := by
      unfold Sheet.read
      rw [hag]
    rw [hread] at h'
    split at h
    · cases h
    · cases h
    next a b ha hb =>
      rw [ha] at h'
      split at h'
      · cases h'
      · cases h'
      next a' b' ha' hb' =>
        cases ha'
        split at h
        · cases h
        next q hq =>
          split at h'
          · cases h'
          next q' hq' =>
            cases h
            cases h'
            exact dateRange_comparable hq hq'

end Xls
