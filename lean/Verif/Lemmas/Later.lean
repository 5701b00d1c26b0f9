/-
Lemmas for C122: a later start does not change how the dates after it are read.
-/
import Verif.Spec.Later
import Verif.Lemmas.Cut
import Verif.Lemmas.CleanRun
import Verif.Lemmas.Offset
import Verif.Lemmas.Layout
import Verif.Props.Periods
import Verif.Props.Extraction

set_option autoImplicit false

namespace Xls

open Spec

/-! ### The start does not matter for a single step -/

theorem parseTimeValue_start (ext : Ext) (sp : SParams) (m : Int) (parser : Option Parser) (v : Cell) (last : Option Time)
    (next : Cell) : parseTimeValue ext (startAt m sp) parser v last next = parseTimeValue ext sp parser v last next := by
  unfold parseTimeValue
  have : ∀ old ps, searchParser ext (startAt m sp) v last next old ps = searchParser ext sp v last next old ps := by
    intro old ps
    induction ps with
    | nil => rfl
    | cons p ps ih => unfold searchParser; rw [ih]; rfl
  simp only [this]
  rfl

theorem cleanValue_start (ext : Ext) (sp : SParams) (m : Int) (st : CState) (s : Sheet) (r c : Int) (curr next : Cell) :
    cleanValue ext (startAt m sp) st s r c curr next = cleanValue ext sp st s r c curr next := by
  unfold cleanValue
  dsimp only
  rw [parseTimeValue_start]
  rfl

theorem cleanStep_start (ext : Ext) (sp : SParams) (m : Int) (st : CState) (s : Sheet) (pos : Int) :
    cleanStep ext (startAt m sp) st s pos = cleanStep ext sp st s pos := by
  unfold cleanStep
  simp only [cleanValue_start]
  rfl

theorem steps_start {ext : Ext} {sp : SParams} {m : Int} {st st' : CState} {s s' : Sheet} {p q : Int}
    (h : Steps ext (startAt m sp) st s p st' s' q) : Steps ext sp st s p st' s' q := by
  induction h with
  | refl => exact .refl _ _ _
  | tail _ hs ih => exact .tail ih (by rw [← cleanStep_start]; exact hs)

/-! ### A reading that corrects nothing -/

/-- If nothing has changed in the end nothing had changed before. -/
theorem steps_unchanged {ext : Ext} {sp : SParams} {st st1 st2 : CState} {s s1 s2 : Sheet} {p q q2 hr hc : Int}
    (hh : timeHeaderCell sp.timeHeader = .ok (hr, hc)) (h : Steps ext sp st s p st1 s1 q)
    (h2 : Steps ext sp st1 s1 q st2 s2 q2) (hs : s2.cells = s.cells) : s1.cells = s.cells := by
  funext r c
  rcases steps_frame hh h r c with k | ⟨⟨pos, a1, a2, a3⟩, -⟩
  · exact k
  · have := steps_frame_before h2 a2 hr hc
    unfold timeCell at this
    unfold IsAt at a3
    rw [a3.1, a3.2, ← this, hs]

/-- What the cleaner remembers between dates that need no correction. -/
def Standing (st : CState) : Prop :=
  st.mfLast = [] ∧ st.mfFreq = [] ∧
    ((st.parser = none ∧ st.last = none) ∨ (st.parser = some .month1 ∧ ∃ t, st.last = some t))

theorem correctStep_single {sp : SParams} (hf : sp.frequency.length = 1) {st st1 : CState} {t0 : Time} {t : Option Time}
    (h : correctStep sp st t0 = .ok (t, st1)) : st1 = st := by
  unfold correctStep at h
  rw [if_pos hf] at h
  split at h
  · cases h
    rfl
  · cases h

theorem standing_step {ext : Ext} {sp : SParams} {hr hc q : Int} (hcol : TimeColumn sp hr hc) {st st2 : CState}
    {s1 s2 : Sheet} (hst : Standing st) (hs : cleanStep ext sp st s1 q = (.next st2, s2)) (hu : s2.cells = s1.cells) :
    Standing st2 ∧ ∀ t, timeCell s1 sp.alignment hr hc q = .dt t → st2.last = some t ∧ st2.blanks = 0 := by
  obtain ⟨hr', hc', curr, next, s0, hh, hcell, hcur, hnext, hn'⟩ := cleanStep_next hs
  rw [hcol.headerCell] at hh
  cases hh
  have hcd := getTimeValue_single hcol.single hcol.headerCell hcur
  cases hn' with
  | write t0 t pr st1' must parsed corr fresh hst2 hs' =>
    have e1 := correctStep_single hcol.oneLetter corr
    have e2 : timeCell s1 sp.alignment hr hc q = .dt t := by
      unfold timeCell
      rw [← hu, hs', set_cells, if_pos ⟨rfl, rfl⟩]
    have e3 : curr = .dt t := by rw [hcd, e2]
    subst e3 e1 hst2
    refine ⟨⟨hst.1, hst.2.1, .inr ⟨?_, _, rfl⟩⟩, fun t' ht' => ?_⟩
    · show pr = some .month1
      rcases hst.2.2 with ⟨k, -⟩ | ⟨k, -⟩
      · rw [k] at parsed
        simp [parseTimeValue, parsers, searchParser, accepts, hcol.notComposed, parseWith, parseCell] at parsed
        exact parsed.2.symm
      · rw [k] at parsed
        simp [parseTimeValue, parseWith, parseCell] at parsed
        exact parsed.2.symm
    · rw [e2] at ht'
      cases ht'
      exact ⟨rfl, rfl⟩
  | blanked pr e must parsed out hst2 hs' =>
    exfalso
    have e2 : timeCell s1 sp.alignment hr hc q = .none := by
      unfold timeCell
      rw [← hu, hs', set_cells, if_pos ⟨rfl, rfl⟩]
    rw [hcd, e2] at must
    simp [mustBeTimeValue] at must
  | skipped must few may hst2 hs' =>
    subst hst2
    refine ⟨hst, fun t ht => ?_⟩
    rw [hcd, ht, mustBe_dt] at must
    cases must

theorem steps_standing {ext : Ext} {sp : SParams} {hr hc p q : Int} (hcol : TimeColumn sp hr hc) {st st' : CState}
    {s s' : Sheet} (hst : Standing st) (h : Steps ext sp st s p st' s' q) (hu : s'.cells = s.cells) : Standing st' := by
  induction h with
  | refl => exact hst
  | tail h hs ih =>
    have e1 := steps_unchanged hcol.headerCell h (.tail (.refl _ _ _) hs) hu
    exact (standing_step hcol (ih e1) hs (hu.trans e1.symm)).1

theorem standing_init : Standing .init := ⟨rfl, rfl, .inl ⟨rfl, rfl⟩⟩

/-- How a cleaning ends, with the bound on where it stopped. -/
theorem cleanTimeIndex_ends_within {ext : Ext} {sp : SParams} {s s1 : Sheet} {e : Int} (hta : sp.timeAlignment = 0)
    (h : cleanTimeIndex ext sp s = (.ok e, s1)) :
    ∃ hr hc, timeHeaderCell sp.timeHeader = .ok (hr, hc) ∧ sp.dataStarts < e ∧
      (∃ t, timeCell s1 sp.alignment hr hc e = .dt t) ∧
      ∃ st1 sb q, Steps ext sp .init s sp.dataStarts st1 sb q ∧ s1.cells = sb.cells ∧ e ≤ q ∧
        ((q = scanEnd sp s + 1 ∧ estimateEnd sp s1 hr hc (q - 1) = .ok e) ∨
         (q < scanEnd sp s + 1 ∧ estimateEnd sp s1 hr hc q = .ok e ∧ cleanStep ext sp st1 sb q = (.stop, s1))) := by
  by_cases hf : sp.frequency = []
  · rw [cleanTimeIndex_empty s hf] at h
    cases h
  rw [cleanTimeIndex_accepted s hf] at h
  obtain ⟨st1, sb, q, h1, h2⟩ := cleanWith_end ext sp s
  have hc := h2.cells
  rw [h] at h2 hc
  dsimp only at h2 hc
  have hle := h1.le
  obtain ⟨res, hres⟩ : ∃ res : Except Err Int, Except.ok e = res := ⟨_, rfl⟩
  rw [hres] at h2
  cases h2 with
  | error er s' hs hq => cases hres
  | done hr hc' hh hq hq' =>
    obtain ⟨k1, k2, k3, k4, k5, k6⟩ := estimateEnd_ok (by omega) hres.symm
    rw [hta, Int.add_zero] at k3 k4 k5 k6
    refine ⟨hr, hc', hh, k1, ?_, st1, _, q, h1, hc, by omega, .inl ⟨hq, hres.symm⟩⟩
    rcases k6 with k6 | k6
    · exact k6
    · omega
  | stop hr hc' hh s' hs hq hstop =>
    obtain ⟨k1, k2, k3, k4, k5, k6⟩ := estimateEnd_ok (by omega) hres.symm
    rw [hta, Int.add_zero] at k3 k4 k5 k6
    refine ⟨hr, hc', hh, k1, ?_, st1, sb, q, h1, hc, by omega, .inr ⟨hq, hres.symm, hstop⟩⟩
    rcases k6 with k6 | k6
    · exact k6
    · omega

/-- The last date before a position is where the series end. -/
theorem estimateEnd_same {sp sp' : SParams} {s s' : Sheet} {hr hc pos e e' : Int} (hta : sp.timeAlignment = 0)
    (hal : sp'.alignment = sp.alignment) (hta' : sp'.timeAlignment = 0) (hp : sp.dataStarts ≤ pos) (hp' : sp'.dataStarts ≤ pos)
    (hc' : s'.cells = s.cells) (h : estimateEnd sp s hr hc pos = .ok e) (h' : estimateEnd sp' s' hr hc pos = .ok e') :
    e' = e := by
  obtain ⟨k1, k2, k3, k4, k5, k6⟩ := estimateEnd_ok hp h
  obtain ⟨l1, l2, l3, l4, l5, l6⟩ := estimateEnd_ok hp' h'
  rw [hta, Int.add_zero] at k3 k4 k5 k6
  rw [hta', Int.add_zero] at l3 l4 l5 l6
  have hcell : ∀ x, timeCell s' sp'.alignment hr hc x = timeCell s sp.alignment hr hc x := by
    intro x
    unfold timeCell
    rw [hal, hc']
  have d1 : ∃ t, timeCell s sp.alignment hr hc e = .dt t := k6.resolve_right (by omega)
  have d2 : ∃ t, timeCell s' sp'.alignment hr hc e' = .dt t := l6.resolve_right (by omega)
  rcases Int.lt_trichotomy e e' with k | k | k
  · obtain ⟨t, ht⟩ := d2
    exact absurd (by rw [← hcell]; exact ht) (k5 e' k l4 t)
  · exact k.symm
  · obtain ⟨t, ht⟩ := d1
    exact absurd (by rw [hcell]; exact ht) (l5 e k k4 t)

theorem correctProgression_start (t : Time) (f : Str) (m : Bool) (mv : PVal) :
    correctProgression none t f m mv = .ok (some t) := by
  rfl

/-- A table whose dates need no correction, read from a later row with a date on: nothing is corrected and the same end is
found. -/
theorem cleaned_later {ext : Ext} {sp : SParams} {s s1 s1' : Sheet} {e e' m hr hc : Int} {t : Time}
    (hcol : TimeColumn sp hr hc) (hta : sp.timeAlignment = 0) (hm : sp.dataStarts ≤ m) (hme : m < e)
    (ht : timeCell s sp.alignment hr hc m = .dt t) (h : cleanTimeIndex ext sp s = (.ok e, s1)) (hs1 : s1.cells = s.cells)
    (h' : cleanTimeIndex ext (startAt m sp) s = (.ok e', s1')) : e' = e ∧ s1'.cells = s.cells := by
  obtain ⟨hr1, hc1, hh, hlt, -, st1, sb, q, hst, hsb, heq, hend⟩ := cleanTimeIndex_ends_within hta h
  obtain ⟨hr2, hc2, hh', hlt', -, st1', sb', q', hst', hsb', heq', hend'⟩ :=
    cleanTimeIndex_ends_within (sp := startAt m sp) hta h'
  rw [hcol.headerCell] at hh
  cases hh
  have hh2 : timeHeaderCell sp.timeHeader = .ok (hr2, hc2) := hh'
  rw [hcol.headerCell] at hh2
  cases hh2
  have hlt2 : m < e' := hlt'
  have hst2 : Steps ext sp .init s m st1' sb' q' := steps_start hst'
  have hscan : scanEnd (startAt m sp) s = scanEnd sp s := rfl
  rw [hscan] at hend'
  -- the step at `m`
  obtain ⟨x1, x2, x3, x4, a1, a2, a3⟩ := steps_at hst hm (by omega : m < q)
  obtain ⟨y1, y2, y3, y4, b1, b2, b3⟩ := steps_at hst2 (Int.le_refl m) (by omega : m < q')
  have hfin : sb.cells = s.cells := hsb.symm.trans hs1
  have u2 : x2.cells = s.cells := steps_unchanged hcol.headerCell a1 (.head a2 a3) hfin
  have u4 : x4.cells = s.cells := steps_unchanged hcol.headerCell (.tail a1 a2) a3 hfin
  have n1 := steps_standing hcol standing_init a1 u2
  obtain ⟨n3, l3⟩ := standing_step hcol n1 a2 (u4.trans u2.symm)
  obtain ⟨l3, l3b⟩ := l3 t (by
    unfold timeCell at ht ⊢
    rw [u2]
    exact ht)
  obtain ⟨ey1, ey2⟩ := steps_unique b1 (.refl _ _ _) rfl
  subst ey1 ey2
  have u4' : y4.cells = y2.cells := by
    obtain ⟨s0, pp, hs0, hstep⟩ := cleanStep_dt (ext := ext) hcol hm .init y2 ht
    rw [b2] at hstep
    rw [show (CState.init).last = none from rfl, correctProgression_start] at hstep
    dsimp only at hstep
    rw [if_neg (by simp)] at hstep
    injection hstep with _ k2
    rw [k2]
    exact set_same hs0 (by unfold timeCell at ht; exact ht)
  obtain ⟨n3', l3'⟩ := standing_step hcol standing_init b2 u4'
  obtain ⟨l3', l3b'⟩ := l3' t ht
  have e3 : y3 = x3 := by
    obtain ⟨i1, i2, i3⟩ := n3
    obtain ⟨j1, j2, j3⟩ := n3'
    have i4 : x3.parser = some .month1 := by
      rcases i3 with ⟨-, k⟩ | ⟨k, -⟩
      · rw [l3] at k; cases k
      · exact k
    have j4 : y3.parser = some .month1 := by
      rcases j3 with ⟨-, k⟩ | ⟨k, -⟩
      · rw [l3'] at k; cases k
      · exact k
    cases x3
    cases y3
    simp_all
  subst e3
  -- the steps after it
  obtain ⟨sx, c3, hsx⟩ := steps_cells (s2 := y4) (u4'.trans u4.symm) a3
  rcases Int.lt_trichotomy q q' with hq | hq | hq
  · exfalso
    rcases hend with ⟨k, -⟩ | ⟨-, -, hstop⟩
    · rcases hend' with ⟨k', -⟩ | ⟨k', -⟩ <;> omega
    · obtain ⟨z1, z2, z3, z4, d1, d2, -⟩ := steps_at b3 c3.le hq
      obtain ⟨f1, f2⟩ := steps_unique d1 c3 rfl
      subst f1 f2
      obtain ⟨_, k, -⟩ := cleanStep_cells hsx hstop
      rw [d2] at k
      cases k
  · subst hq
    obtain ⟨f1, f2⟩ := steps_unique b3 c3 rfl
    subst f1 f2
    have hcells : s1'.cells = s1.cells := by rw [hsb', hsx, hsb]
    refine ⟨?_, hcells.trans hs1⟩
    rcases hend with ⟨k, ke⟩ | ⟨k, ke, -⟩
    · rcases hend' with ⟨k', ke'⟩ | ⟨k', ke', -⟩
      · exact estimateEnd_same (sp := sp) (sp' := startAt m sp) hta rfl hta (by omega) (by
          show m ≤ _
          omega) hcells ke ke'
      · omega
    · rcases hend' with ⟨k', ke'⟩ | ⟨k', ke', -⟩
      · omega
      · exact estimateEnd_same (sp := sp) (sp' := startAt m sp) hta rfl hta (by omega) (by
          show m ≤ _
          omega) hcells ke ke'
  · exfalso
    rcases hend' with ⟨k, -⟩ | ⟨-, -, hstop⟩
    · rcases hend with ⟨k', -⟩ | ⟨k', -⟩ <;> omega
    · rw [cleanStep_start] at hstop
      obtain ⟨z1, z2, z3, z4, d1, d2, -⟩ := steps_at c3 b3.le hq
      obtain ⟨f1, f2⟩ := steps_unique d1 b3 rfl
      subst f1 f2
      rw [d2] at hstop
      cases hstop

/-- Where every row down to the end that is given has a date, that end is found. -/
theorem cleaned_given {ext : Ext} {sp : SParams} {s s1 : Sheet} {e n hr hc : Int} (hcol : TimeColumn sp hr hc)
    (hta : sp.timeAlignment = 0) (hends : sp.dataEnds = some n) (hn : 0 < n)
    (hdt : ∀ x, sp.dataStarts ≤ x → x ≤ n → ∃ t, timeCell s sp.alignment hr hc x = .dt t)
    (h : cleanTimeIndex ext sp s = (.ok e, s1)) (hs1 : s1.cells = s.cells) : e = n := by
  obtain ⟨hr1, hc1, hh, hlt, -, st1, sb, q, hst, hsb, heq, hend⟩ := cleanTimeIndex_ends_within hta h
  rw [hcol.headerCell] at hh
  cases hh
  have hscan : scanEnd sp s = n := by
    unfold scanEnd
    rw [hends]
    exact if_neg (by omega)
  rw [hscan] at hend
  have hle := hst.le
  rcases hend with ⟨k, ke⟩ | ⟨k, -, hstop⟩
  · have kq : q - 1 = n := by omega
    rw [kq] at ke
    obtain ⟨k1, k2, k3, k4, k5, k6⟩ := estimateEnd_ok (by omega) ke
    rw [hta, Int.add_zero] at k4 k5
    by_contra hne
    obtain ⟨t, ht⟩ := hdt n (by omega) (by omega)
    refine k5 n (by omega) (by omega) t ?_
    unfold timeCell at ht ⊢
    rw [hs1]
    exact ht
  · exfalso
    obtain ⟨t, ht⟩ := hdt q (by omega) (by omega)
    have hasE : hasEnd sp = true := by
      unfold hasEnd
      rw [hends]
      simp only [bne_iff_ne, ne_eq]
      omega
    have hno : ∀ st u r c er, (handleError sp st u r c er).1 ≠ .stop := by
      intro st u r c er
      unfold handleError
      rw [hasE]
      split
      · simp
      · simp
    obtain ⟨s0, pp, hs0, hstep⟩ := cleanStep_dt (ext := ext) hcol hle st1 sb (t := t) (by
      unfold timeCell at ht ⊢
      rw [← hsb, hs1]
      exact ht)
    rw [hstop] at hstep
    have h1 := congrArg Prod.fst hstep
    dsimp only at h1
    revert h1
    split
    · exact fun h1 => hno _ _ _ _ _ h1.symm
    · intro h1; cases h1
    · split
      · exact fun h1 => hno _ _ _ _ _ h1.symm
      · intro h1; cases h1

/-! ### Values -/

theorem rowEntries_append_right {ext : Ext} {sp : SParams} {s : Sheet} {hr hc : Int} : ∀ {is js : List Int} {zs : List Num},
    rowEntries ext sp s hr hc (is ++ js) = .ok zs → ∃ ys, rowEntries ext sp s hr hc js = .ok ys ∧ ys <:+ zs
  | [], js, zs, h => ⟨zs, h, List.suffix_refl _⟩
  | i :: is, js, zs, h => by
    rw [List.cons_append] at h
    unfold rowEntries at h
    split at h
    · cases h
    · split at h
      · cases h
      next xs hx =>
        cases h
        obtain ⟨ys, h1, h2⟩ := rowEntries_append_right hx
        exact ⟨ys, h1, h2.trans (List.suffix_append _ _)⟩

theorem rowEntries_startAt (ext : Ext) (sp : SParams) (m : Int) (s : Sheet) (hr hc : Int) : ∀ is : List Int,
    rowEntries ext (startAt m sp) s hr hc is = rowEntries ext sp s hr hc is
  | [] => rfl
  | i :: is => by
    unfold rowEntries
    rw [rowEntries_startAt ext sp m s hr hc is]
    rfl

theorem finish_noImplicit {ext : Ext} {sp : SParams} {s : Sheet} {e : Int} {xs vs : List Num} (hi : NoImplicit sp)
    (hf : sp.frequency.length = 1) (h : finish ext sp s e xs = .ok [vs]) : vs = xs := by
  have plain : (dealt sp.frequency xs).map Prod.snd = [vs] → vs = xs := by
    intro k
    rw [dealt_single_snd hf] at k
    split at k
    · cases k
    · cases k
      rfl
  cases hm : sp.missings with
  | false =>
    rw [finish_plain (markers := []) (by simp [hm]) (by simp [hm])] at h
    exact plain (Except.ok.inj h)
  | true =>
    obtain ⟨ms, e1, e2⟩ := hi hm
    rw [finish_plain (fun _ => e1) (fun _ => .inl e2)] at h
    exact plain (Except.ok.inj h)

/-! ### Filling in -/

theorem consecutive_suffix {freq : Str} : ∀ {gs hs : List Time}, hs <:+ gs → Consecutive freq gs → Consecutive freq hs
  | [], hs, h, hc => by
    rw [List.suffix_nil.1 h]
    exact hc
  | g :: gs, hs, h, hc => by
    rcases List.suffix_cons_iff.1 h with rfl | h
    · exact hc
    · refine consecutive_suffix h ?_
      cases gs with
      | nil => trivial
      | cons a r => exact hc.2

/-- From the date of some observation on, the entries of a grid are those of the rest of the grid. -/
theorem expand_drop : ∀ (gs : List Time) (obs : List (Time × Num)) (n : Nat), n < obs.length →
    (obs.map Prod.fst).Sublist gs → ∃ g2, g2 <:+ gs ∧ g2.head? = ((obs.drop n).map Prod.fst).head? ∧
      ((obs.drop n).map Prod.fst).Sublist g2 ∧ expand g2 (obs.drop n) <:+ expand gs obs
  | _, [], _, hn, _ => absurd hn (by simp)
  | [], (t, x) :: rest, _, _, hs => by cases hs
  | g :: gs, (t, x) :: rest, n, hn, hs => by
    by_cases hg : g = t
    · subst hg
      have hs' : (rest.map Prod.fst).Sublist gs := by
        cases hs with
        | cons _ h => exact (List.sublist_cons_self _ _).trans h
        | cons_cons _ h => exact h
      cases n with
      | zero => exact ⟨g :: gs, List.suffix_refl _, rfl, hs, List.suffix_refl _⟩
      | succ n =>
        obtain ⟨g2, h1, h2, h3, h4⟩ := expand_drop gs rest n (by simpa using hn) hs'
        refine ⟨g2, h1.trans (List.suffix_cons _ _), h2, h3, ?_⟩
        rw [expand, if_pos rfl]
        exact h4.trans (List.suffix_cons _ _)
    · have hs' : (((t, x) :: rest).map Prod.fst).Sublist gs := by
        cases hs with
        | cons _ h => exact h
        | cons_cons _ h => exact absurd rfl hg
      obtain ⟨g2, h1, h2, h3, h4⟩ := expand_drop gs ((t, x) :: rest) n hn hs'
      refine ⟨g2, h1.trans (List.suffix_cons _ _), h2, h3, ?_⟩
      rw [expand, if_neg hg]
      exact h4.trans (List.suffix_cons _ _)

/-- The entries of a grid are what is filled in. -/
theorem fillValues_expand {ext : Ext} {freq : Str} {grid ts : List Time} {xs : List Num}
    (hg : OnGrid freq grid ts) (hlen : ts.length = xs.length) (hx : xs ≠ [])
    (hz : ∀ z, grid.getLast? = some z → ∃ z', NextPeriod freq z z') :
    fillValues ext freq ((ts.map Cell.dt).zip xs) none = .ok (expand grid (ts.zip xs)) := by
  cases ts with
  | nil => cases xs with
    | nil => exact absurd rfl hx
    | cons _ _ => cases hlen
  | cons t ts =>
  cases xs with
  | nil => exact absurd rfl hx
  | cons x xs =>
  cases grid with
  | nil => have := hg.first; cases this
  | cons g gs =>
  have hgt : t = g := by have := hg.first; injection this
  subst hgt
  have hfst : ((t :: ts).zip (x :: xs)).map Prod.fst = t :: ts := by
    rw [List.map_fst_zip (by omega)]
  have hfill := fillValues_grid (ext := ext) (freq := freq) gs t ((t :: ts).zip (x :: xs)) hg.valid
    hg.steps (by
      intro z h
      obtain ⟨z', hz'⟩ := hz z h
      exact ⟨z', (nextPeriod_iff (hg.valid z (List.mem_of_getLast? h))).1 hz'⟩)
    (by rw [hfst]; exact hg.sub) (by rw [hfst]; exact hg.last)
  have hnone : ∀ rest, fillValues ext freq ((.dt t, x) :: rest) none =
      fillValues ext freq ((.dt t, x) :: rest) (some t) := by
    intro rest
    have : fillOne ext freq (.dt t) none = fillOne ext freq (.dt t) (some t) := by
      unfold fillOne; rfl
    rw [fillValues, fillValues, this]
  rw [zip_map_fst_dt, ← hfill]
  simp only [List.zip_cons_cons, List.map_cons]
  rw [hnone]

/-- What is filled in from a later row on is the end of what is filled in from the first row on. -/
theorem fillValues_drop {ext : Ext} {freq : Str} {grid ts : List Time} {xs ys zs : List Num} {n : Nat}
    (hg : OnGrid freq grid ts) (hlen : ts.length = xs.length) (hn : n < ts.length)
    (hz : ∀ z, grid.getLast? = some z → ∃ z', NextPeriod freq z z')
    (h : fillValues ext freq ((ts.map Cell.dt).zip xs) none = .ok ys)
    (h' : fillValues ext freq (((ts.drop n).map Cell.dt).zip (xs.drop n)) none = .ok zs) : zs <:+ ys := by
  have hx : xs ≠ [] := by
    rintro rfl
    rw [List.length_nil] at hlen
    omega
  have hx' : xs.drop n ≠ [] := by
    intro e
    have := congrArg List.length e
    rw [List.length_drop, List.length_nil] at this
    omega
  have hfst : (ts.zip xs).map Prod.fst = ts := List.map_fst_zip (by omega)
  have hdrop : (ts.zip xs).drop n = (ts.drop n).zip (xs.drop n) := List.drop_zipWith
  have hfst' : ((ts.zip xs).drop n).map Prod.fst = ts.drop n := by rw [List.map_drop, hfst]
  obtain ⟨g2, h1, h2, h3, h4⟩ := expand_drop grid (ts.zip xs) n (by rw [List.length_zip]; omega) (by rw [hfst]; exact hg.sub)
  rw [hfst'] at h2 h3
  have hlast : g2.getLast? = grid.getLast? := by
    obtain ⟨pre, rfl⟩ := h1
    cases g2 with
    | nil =>
      rw [List.head?_nil, eq_comm, List.head?_eq_none_iff, List.drop_eq_nil_iff] at h2
      omega
    | cons a r => rw [List.getLast?_append_cons]
  have hg2 : OnGrid freq g2 (ts.drop n) :=
    ⟨fun t ht => hg.valid t (h1.subset ht), consecutive_suffix h1 hg.steps, h3, h2.symm, by
      rw [hlast, ← hg.last, List.getLast?_drop, if_neg (by omega)]⟩
  rw [fillValues_expand hg hlen hx hz] at h
  rw [fillValues_expand hg2 (by rw [List.length_drop, List.length_drop, hlen]) hx' (by rw [hlast]; exact hz), ← hdrop] at h'
  cases h
  cases h'
  exact h4

theorem cellsAlong_from (s : Sheet) (al : Align) (hr hc : Int) {lo m hi : Int} (hm : lo ≤ m) :
    cellsAlong s al hr hc m hi = (cellsAlong s al hr hc lo hi).drop (m - lo).toNat := by
  refine List.ext_getElem (by rw [List.length_drop, cellsAlong_length, cellsAlong_length]; omega) fun i h1 h2 => ?_
  simp only [cellsAlong, List.getElem_drop, List.getElem_map, List.getElem_range]
  congr 1
  omega

/-- Whether or not values are filled in from the dates: those from a later row on are the last of those from the first
row on. -/
theorem finish_suffix {ext : Ext} {sp : SParams} {s : Sheet} {e m tr tc : Int} {xs zs vs vs' : List Num}
    (hi : NoImplicit sp ∨ FilledIn s sp tr tc e) (hh : HeaderAt sp tr tc) (hal : sp.alignment = .vertical)
    (hf : sp.frequency.length = 1) (hm : sp.dataStarts ≤ m) (hle : m ≤ e) (hsuf : zs <:+ xs)
    (hlx : sp.continuity = true → sp.blankRows = false → (xs.length : Int) = e - sp.dataStarts + 1)
    (hlz : sp.continuity = true → sp.blankRows = false → (zs.length : Int) = e - m + 1)
    (h : finish ext sp s e xs = .ok [vs]) (h' : finish ext (startAt m sp) s e zs = .ok [vs']) : vs' <:+ vs := by
  rcases hi with hi | hi
  · rw [finish_noImplicit hi hf h, finish_noImplicit (sp := startAt m sp) hi hf h']
    exact hsuf
  · obtain ⟨markers, k1, k2⟩ := hi.implicit
    obtain ⟨grid, ts, k3, k4, k5⟩ := hi.dates
    have lx := hlx hi.continuous hi.noBlankRows
    have lz := hlz hi.continuous hi.noBlankRows
    have lt := congrArg List.length k3
    rw [cellsAlong_length, List.length_map] at lt
    have hx : xs ≠ [] := by
      rintro rfl
      rw [List.length_nil] at lx
      omega
    have hz : zs ≠ [] := by
      rintro rfl
      rw [List.length_nil] at lz
      omega
    have hzs : zs = xs.drop (m - sp.dataStarts).toNat := by
      rw [List.suffix_iff_eq_drop.1 hsuf]
      congr 1
      omega
    rw [finish_implicit hi.missings k1 k2 hf hh hx, hal, k3] at h
    rw [finish_implicit (sp := startAt m sp) hi.missings k1 k2 hf hh hz] at h'
    have hal' : (startAt m sp).alignment = .vertical := hal
    have hst : (startAt m sp).dataStarts = m := rfl
    have hfr : (startAt m sp).frequency = sp.frequency := rfl
    rw [hal', hst, hfr, cellsAlong_from s .vertical tr tc hm, k3, hzs, ← List.map_drop] at h'
    split at h
    · cases h
    next ys hy =>
      split at h'
      · cases h'
      next us hu =>
        cases h
        cases h'
        exact fillValues_drop k4 (by omega) (by omega) k5 hy hu

/-- A continuous series without blank rows has one value per row. -/
theorem rowEntries_length {ext : Ext} {sp : SParams} {s : Sheet} {hr hc last : Int} {xs : List Num}
    (hd : DataCells sp hr hc last) (hm : sp.missings = true → ∃ markers, sp.missingValue = .list markers)
    (hcont : sp.continuity = true) (hb : sp.blankRows = false)
    (h : rowEntries ext sp s hr hc (intRange sp.dataStarts (last + 1)) = .ok xs) :
    xs.length = (last + 1 - sp.dataStarts).toNat := by
  obtain ⟨markers, hmk⟩ : ∃ markers, sp.missings = true → sp.missingValue = .list markers := by
    by_cases k : sp.missings = true
    · obtain ⟨ms, e1⟩ := hm k
      exact ⟨ms, fun _ => e1⟩
    · exact ⟨[], fun k' => absurd k' k⟩
  have := congrArg List.length (((continuous_rows hd hmk hcont).1 xs).1 h)
  rw [List.length_map, List.length_map] at this
  rw [← this]
  unfold contCells
  rw [hb]
  exact cellsAlong_length _ _ _ _ _ _

/-- Where the start is later the name is the same and the values are the last ones of those of before. -/
theorem getSeries_suffix {ext : Ext} {sp : SParams} {s : Sheet} {e m tr tc : Int} {c c' : Str × List Num}
    (hal : sp.alignment = .vertical) (hf : sp.frequency.length = 1) (hi : NoImplicit sp ∨ FilledIn s sp tr tc e)
    (hh : HeaderAt sp tr tc) (hm : sp.dataStarts ≤ m) (hle : m ≤ e) (h1 : getSeries ext { sp with dataEnds := some e } s = .ok [c])
    (h2 : getSeries ext { startAt m sp with dataEnds := some e } s = .ok [c']) : c'.1 = c.1 ∧ c'.2 <:+ c.2 := by
  have hne : sp.frequency ≠ [] := by
    intro h0
    rw [h0] at hf
    cases hf
  obtain ⟨v1, hr, hc, d1⟩ := getSeries_dataCells hal (by omega) h1
  obtain ⟨v2, hr2, hc2, d2⟩ := getSeries_dataCells (sp := startAt m sp) hal hle h2
  have hco := d1.header.symm.trans d2.header
  cases hco
  constructor
  · have hnm : getName ext { startAt m sp with dataEnds := some e } s = getName ext { sp with dataEnds := some e } s := rfl
    unfold getSeries at h1 h2
    rw [v1] at h1
    rw [v2, hnm] at h2
    cases hn : getName ext { sp with dataEnds := some e } s with
    | error er => rw [hn] at h1; cases h1
    | ok name =>
      rw [hn] at h1 h2
      have e1 := congrArg (List.map Prod.fst) (Except.ok.inj h1)
      have e2 := congrArg (List.map Prod.fst) (Except.ok.inj h2)
      have k1 : [name] = [c.1] := e1
      have k2 : [name] = [c'.1] := e2
      rw [← List.singleton_inj.1 k1, ← List.singleton_inj.1 k2]
  · rw [getValues_eq d1 hne] at v1
    rw [getValues_eq d2 hne] at v2
    dsimp only at v1 v2
    split at v1
    · cases v1
    next xs hx =>
      split at v2
      · cases v2
      next zs hz =>
        have hx0 := hx
        rw [intRange_split (b := m) hm (by omega : m ≤ e + 1)] at hx
        obtain ⟨ys, hy, hsuf⟩ := rowEntries_append_right hx
        have hz' : rowEntries ext { sp with dataEnds := some e } s hr hc (intRange m (e + 1)) = .ok zs := by
          rw [← rowEntries_startAt ext { sp with dataEnds := some e } m]
          exact hz
        rw [hy] at hz'
        cases hz'
        have hmk : sp.missings = true → ∃ markers, sp.missingValue = .list markers := by
          intro k
          rcases hi with hi | hi
          · obtain ⟨ms, e1, -⟩ := hi k
            exact ⟨ms, e1⟩
          · obtain ⟨ms, e1, -⟩ := hi.implicit
            exact ⟨ms, e1⟩
        refine finish_suffix (sp := { sp with dataEnds := some e }) (tr := tr) (tc := tc) ?_ hh hal hf hm hle hsuf ?_ ?_ v1 v2
        · exact hi.imp id fun k => ⟨k.missings, k.implicit, k.continuous, k.noBlankRows, k.dates⟩
        · intro k1 k2
          rw [rowEntries_length d1 hmk k1 k2 hx0]
          dsimp only
          omega
        · intro k1 k2
          rw [rowEntries_length d2 hmk k1 k2 hz]
          dsimp only [startAt]
          omega

/-! ### Ranges -/

theorem sorted_suffix {a : Time} : ∀ {ts ts' : List Time}, (∀ t ∈ ts, ValidTime t) → ts.Pairwise (· < ·) →
    ts'.Pairwise (· < ·) → (∀ t, t ∈ ts' ↔ t ∈ ts ∧ a ≤ t) → ts' <:+ ts
  | [], ts', _, _, _, h => by
    cases ts' with
    | nil => exact List.suffix_refl _
    | cons t _ => exact absurd ((h t).1 (by simp)).1 (by simp)
  | u :: us, ts', hv, hs, hs', h => by
    have hus := List.pairwise_cons.1 hs
    by_cases hu : a ≤ u
    · -- all of them
      have hall : ∀ t, t ∈ ts' ↔ t ∈ u :: us := by
        intro t
        rw [h t]
        refine ⟨fun k => k.1, fun k => ⟨k, ?_⟩⟩
        rcases List.mem_cons.1 k with rfl | k
        · exact hu
        · intro hlt
          exact hu (Time.lt_trans (hus.1 t k) hlt)
      have hp : ts'.Perm (u :: us) := by
        refine (List.perm_ext_iff_of_nodup ?_ ?_).2 hall
        · exact hs'.imp fun {x y} (hxy : x < y) (e : x = y) => Time.lt_irrefl y (e ▸ hxy)
        · exact hs.imp fun {x y} (hxy : x < y) (e : x = y) => Time.lt_irrefl y (e ▸ hxy)
      rw [hp.eq_of_pairwise (le := fun x y => x < y) (fun x y _ _ k1 k2 =>
        absurd (Time.lt_trans k1 k2) (Time.lt_irrefl x)) hs' hs]
    · refine (sorted_suffix (a := a) (fun t ht => hv t (List.mem_cons_of_mem _ ht)) hus.2 hs' fun t => ?_).trans
        (List.suffix_cons _ _)
      rw [h t]
      constructor
      · rintro ⟨k1, k2⟩
        rcases List.mem_cons.1 k1 with rfl | k1
        · exact absurd k2 hu
        · exact ⟨k1, k2⟩
      · rintro ⟨k1, k2⟩
        exact ⟨List.mem_cons_of_mem _ k1, k2⟩

/-- The periods from one date on are the last ones of those from another date on, or the other way round. -/
theorem seriesRanges_suffix {ext : Ext} {s : Sheet} {freq th : Str} {sh : Shift} {start m e hr hc : Int} {us : Nat}
    {pr pr' : PRange} (hfreq : periodShift freq = some sh) (hS : freq ≠ c!"S") (hco : coordOf th = .ok (hr, hc))
    (h1 : 1 ≤ start) (hm : start ≤ m) (hle : m ≤ e) (da : PlainDate us (s.cells start hc))
    (dm : PlainDate us (s.cells m hc)) (dz : PlainDate us (s.cells e hc))
    (h : seriesRanges ext s freq start th e 0 .vertical = .ok [pr])
    (h' : seriesRanges ext s freq m th e 0 .vertical = .ok [pr']) :
    pr'.freqstr = pr.freqstr ∧ (pr'.index <:+ pr.index ∨ pr.index <:+ pr'.index) := by
  obtain ⟨a, ha, va, ra, ua⟩ := da
  obtain ⟨b, hb, vb, rb, ub⟩ := dm
  obtain ⟨z, hz, vz, rz, uz⟩ := dz
  have cell : ∀ x, timeCell s .vertical hr hc (x + 0) = s.cells x hc := by
    intro x
    unfold timeCell rowOf colOf
    simp
  obtain ⟨ts, k1, k2⟩ := C75_index_between ext hfreq (.inl rfl) hco (by omega) (by omega)
    ((cell start).trans ha) ((cell e).trans hz) va vz (by omega) ra rz
  obtain ⟨ts', k1', k2'⟩ := C75_index_between ext hfreq (.inl rfl) hco (by omega) (by omega)
    ((cell m).trans hb) ((cell e).trans hz) vb vz (by omega) rb rz
  obtain ⟨_, l1, l2⟩ := C75_index_members ext hfreq hS (.inl rfl) hco (by omega) (by omega)
    ((cell start).trans ha) ((cell e).trans hz) va vz (by omega) ra rz
  obtain ⟨_, l1', l2'⟩ := C75_index_members ext hfreq hS (.inl rfl) hco (by omega) (by omega)
    ((cell m).trans hb) ((cell e).trans hz) vb vz (by omega) rb rz
  rw [k1] at l1
  cases l1
  rw [k1'] at l1'
  cases l1'
  rw [h] at k1
  cases k1
  rw [h'] at k1'
  cases k1'
  have key : ∀ {a b : Time} {ts ts' : List Time}, ValidTime a → ValidTime b → a.us = b.us → a ≤ b →
      (∀ t ∈ ts, ValidTime t) → ts.Pairwise (· < ·) → ts'.Pairwise (· < ·) →
      (∀ t, t ∈ ts ↔ ValidTime t ∧ PeriodStart freq t ∧ t.us = a.us ∧ a ≤ t ∧ t ≤ z) →
      (∀ t, t ∈ ts' ↔ ValidTime t ∧ PeriodStart freq t ∧ t.us = b.us ∧ b ≤ t ∧ t ≤ z) → ts' <:+ ts := by
    intro a b ts ts' va vb hu hab hv hs hs' l2 l2'
    refine sorted_suffix (a := b) hv hs hs' fun t => ?_
    rw [l2, l2']
    constructor
    · rintro ⟨c1, c2, c3, c4, c5⟩
      rw [le_iff_instant va vb] at hab
      have c4' := c4
      rw [le_iff_instant vb c1] at c4'
      exact ⟨⟨c1, c2, by omega, by rw [le_iff_instant va c1]; omega, c5⟩, c4⟩
    · rintro ⟨⟨c1, c2, c3, -, c5⟩, c4⟩
      exact ⟨c1, c2, by omega, c4, c5⟩
  have s1 := run_sorted k2.valid k2.run
  have s2 := run_sorted k2'.valid k2'.run
  refine ⟨rfl, ?_⟩
  by_cases hab : a ≤ b
  · exact .inl (key va vb (by omega) hab k2.valid s1 s2 l2 l2')
  · refine .inr (key vb va (by omega) ?_ k2'.valid s2 s1 l2' l2)
    rw [le_iff_instant va vb] at hab
    rw [le_iff_instant vb va]
    omega

end Xls
