/-
Cleaning dates that are written in other ways.
-/
import Verif.Lemmas.Letters
import Verif.Lemmas.Numbers2
import Verif.Lemmas.Appended

set_option autoImplicit false

namespace Xls

open Spec

variable {ext : Ext}

/-- What a text is read as. -/
theorem parseWith_str (p : Parser) (freq a : Str) (last : Option Time) (next : Cell) :
    parseWith ext p freq (.str a) last next = parseStrWith ext p freq last next (strip (ext.unidecode a)) := rfl

theorem senseNext_rewritten {sp : SParams} {n n' : Cell} (h : SameDate ext sp n n') (hs : ¬ MonthsOrYears sp) (freq : Str)
    (t : Time) : senseNext ext freq n t = senseNext ext freq n' t := by
  cases h with
  | same => rfl
  | @texts a b h =>
    have ha : a ≠ [] := fun e => h.left (by rw [e]; rfl)
    have hb : b ≠ [] := fun e => h.right (by rw [e]; rfl)
    have e : strip (ext.unidecode a) = strip (ext.unidecode b) := by
      rcases h.text with h | ⟨h, -⟩
      · exact h
      · exact absurd h hs
    have t1 : (Cell.str a).truthy = true := by cases a with | nil => exact absurd rfl ha | cons _ _ => rfl
    have t2 : (Cell.str b).truthy = true := by cases b with | nil => exact absurd rfl hb | cons _ _ => rfl
    unfold senseNext
    rw [if_pos t1, if_pos t2]
    unfold parseCell
    dsimp only
    rw [e]

theorem parseStrWith_next {sp : SParams} {n n' : Cell} (h : SameDate ext sp n n') (hs : ¬ MonthsOrYears sp) (p : Parser)
    (freq : Str) (last : Option Time) (x : Str) :
    parseStrWith ext p freq last n x = parseStrWith ext p freq last n' x := by
  cases p with
  | simple =>
    unfold parseStrWith
    dsimp only
    have : makesSense ext freq last n = makesSense ext freq last n' := by
      funext t
      unfold makesSense
      rw [senseNext_rewritten h hs]
    rw [this]
  | _ => rfl

/-- The parser is one for the frequency of the series, if that has months or years. -/
def ParserFits (sp : SParams) (parser : Option Parser) : Prop :=
  MonthsOrYears sp → ∀ p, parser = some p → p ≠ .simple ∧ p.freq = sp.frequency

theorem parseWith_rewritten {sp : SParams} {c d n n' : Cell} (h : SameDate ext sp c d) (hn : SameDate ext sp n n')
    {p : Parser} (hp : ParserFits sp (some p)) (last : Option Time) :
    parseWith ext p sp.frequency c last n = parseWith ext p sp.frequency d last n' := by
  by_cases hs : MonthsOrYears sp
  · obtain ⟨h1, h2⟩ := hp hs p rfl
    have hx : ∀ x, parseStrWith ext p sp.frequency last n x = parseComposed ext p x last := by
      intro x; cases p <;> first | rfl | exact absurd rfl h1
    have hx' : ∀ x, parseStrWith ext p sp.frequency last n' x = parseComposed ext p x last := by
      intro x; cases p <;> first | rfl | exact absurd rfl h1
    have hf : parseStrWith ext p sp.frequency last n = parseStrWith ext p sp.frequency last n' := by
      funext x; rw [hx, hx']
    cases h with
    | same => unfold parseWith; rw [hf]
    | @texts a b h =>
      rw [parseWith_str, parseWith_str, hx, hx']
      rcases h.text with e | ⟨-, e⟩
      · rw [e]
      · unfold parseComposed
        rw [parseElements_letters ext (by rw [h2]; exact hs.2) e]
  · have hf : parseStrWith ext p sp.frequency last n = parseStrWith ext p sp.frequency last n' := by
      funext x; exact parseStrWith_next hn hs p _ last x
    cases h with
    | same => unfold parseWith; rw [hf]
    | @texts a b h =>
      rw [parseWith_str, parseWith_str, hf]
      rcases h.text with e | ⟨e, -⟩
      · rw [e]
      · exact absurd e hs

theorem accepts_rewritten {sp : SParams} {c d : Cell} (h : SameDate ext sp c d) (p : Parser) :
    accepts ext p sp.timeComposed sp.frequency c = accepts ext p sp.timeComposed sp.frequency d := by
  cases h with
  | same => rfl
  | @texts a b h =>
    unfold accepts
    dsimp only
    rcases h.text with e | ⟨⟨h1, h2⟩, e⟩
    · rw [e]
    · congr 1
      have key : p ≠ .simple → (sp.timeComposed && sp.frequency == p.freq &&
            isOk (parseElements ext p (strip (ext.unidecode a)))) =
          (sp.timeComposed && sp.frequency == p.freq && isOk (parseElements ext p (strip (ext.unidecode b)))) := by
        intro _
        by_cases hf : sp.frequency = p.freq
        · rw [parseElements_letters ext (by rw [← hf]; exact h2) e]
        · rw [show (sp.frequency == p.freq) = false from beq_eq_false_iff_ne.2 hf]
          simp
      cases p <;> first | rfl | exact key (by simp)

theorem accepts_fits {sp : SParams} {c : Cell} {p : Parser}
    (h : accepts ext p sp.timeComposed sp.frequency c = .ok true) : ParserFits sp (some p) := by
  rintro ⟨hc, -⟩ q hq
  cases hq
  rw [hc] at h
  have key : ∀ s, acceptsStr ext p true sp.frequency s = true → p ≠ .simple ∧ p.freq = sp.frequency := by
    intro s hs
    cases p <;> first
      | (unfold acceptsStr at hs
         simp only [Bool.true_and, Bool.and_eq_true, beq_iff_eq] at hs
         exact ⟨by simp, hs.1.symm⟩)
      | (cases hs; done)
  unfold accepts at h
  split at h
  · cases h
  · cases h
  · injection h with h; exact key _ h
  · split at h
    · cases h
    · injection h with h
      rcases Bool.or_eq_true_iff.1 h with h | h
      · exact key _ h
      · exact key _ h
  · injection h with h; exact key _ h

theorem searchParser_rewritten {sp : SParams} {c d n n' : Cell} (h : SameDate ext sp c d) (hn : SameDate ext sp n n')
    (last : Option Time) (old : Option Parser) : ∀ ps,
    searchParser ext sp c last n old ps = searchParser ext sp d last n' old ps
  | [] => rfl
  | p :: ps => by
    unfold searchParser
    rw [← accepts_rewritten h]
    cases ha : accepts ext p sp.timeComposed sp.frequency c with
    | error e => rfl
    | ok x =>
      cases x with
      | true => dsimp only; rw [parseWith_rewritten h hn (accepts_fits ha)]
      | false => exact searchParser_rewritten h hn last old ps

theorem searchParser_fits {sp : SParams} {c n : Cell} {last : Option Time} {old : Option Parser}
    (ho : ParserFits sp old) : ∀ ps, ParserFits sp (searchParser ext sp c last n old ps).2
  | [] => ho
  | p :: ps => by
    unfold searchParser
    cases ha : accepts ext p sp.timeComposed sp.frequency c with
    | error e => exact ho
    | ok x =>
      cases x with
      | true => exact accepts_fits ha
      | false => exact searchParser_fits ho ps

theorem parseTimeValue_rewritten {sp : SParams} {c d n n' : Cell} (h : SameDate ext sp c d) (hn : SameDate ext sp n n')
    {parser : Option Parser} (hp : ParserFits sp parser) (last : Option Time) :
    parseTimeValue ext sp parser c last n = parseTimeValue ext sp parser d last n' := by
  unfold parseTimeValue
  cases parser with
  | none => exact searchParser_rewritten h hn last none parsers
  | some p =>
    dsimp only
    rw [← parseWith_rewritten h hn hp, ← searchParser_rewritten h hn]

theorem parseTimeValue_fits {sp : SParams} {c n : Cell} {parser : Option Parser} (hp : ParserFits sp parser)
    (last : Option Time) : ParserFits sp (parseTimeValue ext sp parser c last n).2 := by
  unfold parseTimeValue
  split
  · exact searchParser_fits hp _
  · split
    · exact hp
    · exact hp
    · exact hp
    · exact searchParser_fits hp _

theorem mustBe_rewritten {sp : SParams} {c d : Cell} (h : SameDate ext sp c d) : mustBeTimeValue sp c = mustBeTimeValue sp d := by
  cases h with
  | same => rfl
  | @texts a b h =>
    unfold mustBeTimeValue
    dsimp only
    rw [bne_iff_ne.2 h.left, bne_iff_ne.2 h.right]
    rfl

/-! ### Worksheets -/

/-- Two worksheets with the same dates and the same contents in the cells of `E`. -/
structure DatesLike (ext : Ext) (sps : List SParams) (E : Int → Int → Prop) (s t : Sheet) : Prop where
  rows : t.maxRow = s.maxRow
  cols : t.maxCol = s.maxCol
  dates : ∀ sp ∈ sps, ∀ r c, InDates sp r c → SameDate ext sp (s.cells r c) (t.cells r c)
  same : ∀ r c, E r c → t.cells r c = s.cells r c

section
variable {sps : List SParams} {E : Int → Int → Prop} {s t : Sheet}

theorem DatesLike.touch (h : DatesLike ext sps E s t) (r c : Int) : DatesLike ext sps E (s.touch r c) (t.touch r c) :=
  ⟨by show max _ _ = max _ _; rw [h.rows], by show max _ _ = max _ _; rw [h.cols], h.dates, h.same⟩

theorem DatesLike.set (h : DatesLike ext sps E s t) (r c : Int) (v : Cell) :
    DatesLike ext sps E (s.set r c v) (t.set r c v) := by
  refine ⟨(h.touch r c).rows, (h.touch r c).cols, fun sp hsp r' c' hd => ?_, fun r' c' he => ?_⟩
  · show SameDate ext sp (if r' = r ∧ c' = c then v else _) (if r' = r ∧ c' = c then v else _)
    split
    · exact .same v
    · exact h.dates sp hsp r' c' hd
  · show (if r' = r ∧ c' = c then v else _) = (if r' = r ∧ c' = c then v else _)
    rw [h.same r' c' he]

/-- Corresponding outcomes of a step. -/
def StepLike {α : Type} (ext : Ext) (sps : List SParams) (E : Int → Int → Prop) (x y : α × Sheet) : Prop :=
  x.1 = y.1 ∧ DatesLike ext sps E x.2 y.2

theorem getTimeValue_rewritten {sp : SParams} (hsp : sp ∈ sps) (hm : sp.timeMulticolumn = false) (h : DatesLike ext sps E s t)
    (pos : Int) :
    DatesLike ext sps E (getTimeValue ext sp pos s).2 (getTimeValue ext sp pos t).2 ∧
      ((∃ e, (getTimeValue ext sp pos s).1 = .error e ∧ (getTimeValue ext sp pos t).1 = .error e) ∨
        ∃ c d, (getTimeValue ext sp pos s).1 = .ok c ∧ (getTimeValue ext sp pos t).1 = .ok d ∧ SameDate ext sp c d) := by
  unfold getTimeValue
  rw [hm]
  cases hth : sp.timeHeader with
  | multi cs => exact ⟨h, .inl ⟨_, rfl, rfl⟩⟩
  | single a =>
    dsimp only
    cases ha : coordOf a with
    | error e => exact ⟨h, .inl ⟨_, rfl, rfl⟩⟩
    | ok rc =>
      obtain ⟨hr, hc⟩ := rc
      dsimp only
      split
      · refine ⟨(h.touch _ _).touch _ _, .inr ⟨_, _, rfl, rfl, ?_⟩⟩
        exact h.dates sp hsp _ _ ⟨a, by rw [hth]; simp [timeCoords], hr, hc, pos, ha, isAt_iff.2 rfl⟩
      · exact ⟨h, .inl ⟨_, rfl, rfl⟩⟩

theorem handleError_rewritten {sp : SParams} (st : CState) (h : DatesLike ext sps E s t) (r c : Int) (e : Err) :
    StepLike ext sps E (handleError sp st s r c e) (handleError sp st t r c e) := by
  unfold handleError
  split
  · exact ⟨rfl, h.set r c _⟩
  · split
    · exact ⟨rfl, h⟩
    · exact ⟨rfl, h⟩

/-- The parser left by a step. -/
def StepFits (sp : SParams) (x : StepEnd) : Prop := ∀ st, x = .next st → ParserFits sp st.parser

theorem handleError_fits {sp : SParams} {st : CState} (h : ParserFits sp st.parser) (s : Sheet) (r c : Int) (e : Err) :
    StepFits sp (handleError sp st s r c e).1 := by
  unfold handleError
  split
  · rintro st' h'
    cases h'
    exact h
  · split <;> (intro st' h'; cases h')

theorem cleanValue_rewritten {sp : SParams} {st : CState} (hst : ParserFits sp st.parser) (h : DatesLike ext sps E s t)
    (r c : Int) {x y n n' : Cell} (hx : SameDate ext sp x y) (hn : SameDate ext sp n n') :
    StepLike ext sps E (cleanValue ext sp st s r c x n) (cleanValue ext sp st t r c y n') ∧
      StepFits sp (cleanValue ext sp st s r c x n).1 := by
  unfold cleanValue
  rw [← mustBe_rewritten hx]
  split
  · dsimp only
    rw [← parseTimeValue_rewritten hx hn hst]
    have hp := parseTimeValue_fits (ext := ext) (c := x) (n := n) hst st.last
    revert hp
    rcases parseTimeValue ext sp st.parser x st.last n with ⟨res, p⟩
    intro hp
    cases res with
    | error e => exact ⟨handleError_rewritten _ h r c e, handleError_fits (by exact hp) s r c e⟩
    | ok tm =>
      dsimp only
      cases hcs : correctStep sp { st with blanks := 0, parser := p } tm with
      | error e => exact ⟨handleError_rewritten _ h r c e, handleError_fits (by exact hp) s r c e⟩
      | ok k =>
        obtain ⟨o, st'⟩ := k
        have hpar := correctStep_parser hcs
        cases o with
        | none => exact ⟨⟨rfl, h⟩, fun st h' => by cases h'⟩
        | some t' =>
          dsimp only
          split
          · exact ⟨handleError_rewritten _ h r c _, handleError_fits (by rw [hpar]; exact hp) s r c _⟩
          · refine ⟨⟨rfl, h.set r c _⟩, ?_⟩
            rintro st'' h'
            cases h'
            show ParserFits sp st'.parser
            rw [hpar]
            exact hp
  · split
    · refine ⟨⟨rfl, h⟩, ?_⟩
      rintro st' h'
      cases h'
      exact hst
    · exact ⟨⟨rfl, h⟩, fun st h' => by cases h'⟩

theorem cleanStep_rewritten {sp : SParams} (hsp : sp ∈ sps) (hm : sp.timeMulticolumn = false) {st : CState}
    (hst : ParserFits sp st.parser) (h : DatesLike ext sps E s t) (pos : Int) :
    StepLike ext sps E (cleanStep ext sp st s pos) (cleanStep ext sp st t pos) ∧
      StepFits sp (cleanStep ext sp st s pos).1 := by
  unfold cleanStep
  have h1 := getTimeValue_rewritten hsp hm h pos
  revert h1
  rcases getTimeValue ext sp pos s with ⟨x, u⟩
  rcases getTimeValue ext sp pos t with ⟨y, v⟩
  rintro ⟨h1, ⟨e, rfl, rfl⟩ | ⟨c, d, rfl, rfl, hcd⟩⟩
  · exact ⟨⟨rfl, h1⟩, fun st h' => by cases h'⟩
  · dsimp only
    have h2 := getTimeValue_rewritten hsp hm h1 (pos + 1)
    dsimp only at h2
    revert h2
    rcases getTimeValue ext sp (pos + 1) u with ⟨x, u⟩
    rcases getTimeValue ext sp (pos + 1) v with ⟨y, v⟩
    rintro ⟨h2, ⟨e, rfl, rfl⟩ | ⟨n, n', rfl, rfl, hn⟩⟩
    · exact ⟨⟨rfl, h2⟩, fun st h' => by cases h'⟩
    · dsimp only
      cases timeHeaderCell sp.timeHeader with
      | error e => exact ⟨⟨rfl, h2⟩, fun st h' => by cases h'⟩
      | ok rc =>
        obtain ⟨hr, hc⟩ := rc
        dsimp only
        exact cleanValue_rewritten hst (h2.touch _ _) _ _ hcd hn

theorem cleanLoop_rewritten {sp : SParams} (hsp : sp ∈ sps) (hm : sp.timeMulticolumn = false) : ∀ (ps : List Int)
    {st : CState} {s t : Sheet} (reached : Option Int), ParserFits sp st.parser → DatesLike ext sps E s t →
    StepLike ext sps E (cleanLoop ext sp st s reached ps) (cleanLoop ext sp st t reached ps)
  | [], _, _, _, _, _, h => ⟨rfl, h⟩
  | pos :: ps, st, s, t, reached, hst, h => by
    unfold cleanLoop
    have h1 := cleanStep_rewritten hsp hm hst h pos
    revert h1
    rcases cleanStep ext sp st s pos with ⟨x, u⟩
    rcases cleanStep ext sp st t pos with ⟨y, v⟩
    rintro ⟨⟨h1, h2⟩, h3⟩
    dsimp only at h1 h2 h3
    subst h1
    cases x with
    | raise e => exact ⟨rfl, h2⟩
    | stop => exact ⟨rfl, h2⟩
    | next st' => exact cleanLoop_rewritten hsp hm ps (some pos) (h3 st' rfl) h2

theorem isDt_rewritten {sp : SParams} {c d : Cell} (h : SameDate ext sp c d) : d.isDt = c.isDt := by
  cases h <;> rfl

theorem lastDtUp_rewritten {col : Int} (h : ∀ row, (t.cells row col).isDt = (s.cells row col).isDt) :
    ∀ (n : Nat) (row : Int), lastDtUp t col n row = lastDtUp s col n row
  | 0, _ => rfl
  | n + 1, row => by
    unfold lastDtUp
    rw [h row, lastDtUp_rewritten h n]

theorem estimateEnd_rewritten {sp : SParams} {hr hc : Int}
    (h : ∀ pos, (t.cells (axisCell sp.alignment hr hc pos).1 (axisCell sp.alignment hr hc pos).2).isDt =
      (s.cells (axisCell sp.alignment hr hc pos).1 (axisCell sp.alignment hr hc pos).2).isDt) (pos : Int) :
    estimateEnd sp t hr hc pos = estimateEnd sp s hr hc pos := by
  unfold estimateEnd
  revert h
  cases sp.alignment with
  | vertical =>
    intro h
    dsimp only
    rw [lastDtUp_rewritten (s := s) (t := t) (show ∀ row, (t.cells row hc).isDt = (s.cells row hc).isDt from fun row => h row)]
  | horizontal => intro h; dsimp only; rw [show (t.cells hr pos).isDt = (s.cells hr pos).isDt from h pos]
  | other => intro h; dsimp only; rw [show (t.cells hr pos).isDt = (s.cells hr pos).isDt from h pos]

theorem cleanTimeIndex_rewritten {sp : SParams} (hsp : sp ∈ sps) (hm : sp.timeMulticolumn = false)
    (h : DatesLike ext sps E s t) : StepLike ext sps E (cleanTimeIndex ext sp s) (cleanTimeIndex ext sp t) := by
  unfold cleanTimeIndex
  split
  · exact ⟨rfl, h⟩
  · unfold cleanWith
    split
    · exact ⟨rfl, h⟩
    · have he : scanEnd sp t = scanEnd sp s := by
        unfold scanEnd
        rw [h.rows, h.cols]
      rw [he]
      have h1 := cleanLoop_rewritten hsp hm (intRange sp.dataStarts (scanEnd sp s + 1)) (st := .init) none
        (fun _ p hp => by cases hp) h
      revert h1
      rcases cleanLoop ext sp .init s none (intRange sp.dataStarts (scanEnd sp s + 1)) with ⟨x, u⟩
      rcases cleanLoop ext sp .init t none (intRange sp.dataStarts (scanEnd sp s + 1)) with ⟨y, v⟩
      rintro ⟨h1, h2⟩
      dsimp only at h1 h2
      subst h1
      cases x with
      | error e => exact ⟨rfl, h2⟩
      | ok o =>
        cases o with
        | none => exact ⟨rfl, h2⟩
        | some pos =>
          dsimp only
          cases hh : timeHeaderCell sp.timeHeader with
          | error e => exact ⟨rfl, h2⟩
          | ok rc =>
            obtain ⟨hr, hc⟩ := rc
            obtain ⟨a, ha, hac⟩ := timeHeaderCell_date hh
            exact ⟨(estimateEnd_rewritten (fun pos => isDt_rewritten (h2.dates sp hsp _ _
              ⟨a, ha, hr, hc, pos, hac, isAt_iff.2 rfl⟩)) pos).symm, h2⟩

end

end Xls
