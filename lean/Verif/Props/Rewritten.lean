/-
C118: the way dates are written does not matter.

The texts of `Verif.Spec.Rewritten`: blanks around a date and accents are left out before it is read, and the grammars
for months and years take capital and small letters alike. Quarters and semesters are different: a Roman number in
small letters is not read.
-/
import Verif.Lemmas.Rewritten2
import Verif.Lemmas.Determined
import Verif.Props.Tables
import Verif.Props.Parsing

set_option autoImplicit false

namespace Xls

open Spec

/-- C118 for one date: two cells with the same date, before cells with the same date, are read as the same date or
raise the same exception, and by the same parser. -/
theorem C118_one_date (ext : Ext) (sp : SParams) {c d n n' : Cell} (h : SameDate ext sp c d) (hn : SameDate ext sp n n')
    (last : Option Time) :
    parseTimeValue ext sp none d last n' = parseTimeValue ext sp none c last n :=
  (parseTimeValue_rewritten h hn (fun _ p hp => by cases hp) last).symm

/-- C118. For series whose dates are in a single column or row each, two worksheets with the same headers, values and
dates, which may be written in other ways, give the same data frames or the same exception, and the same
parameters are left. -/
theorem C118_dates (ext : Ext) {p : Params} {sps : List SParams} {s t : Sheet}
    (hm : ∀ sp ∈ sps, sp.timeMulticolumn = false) (hp : HasSeries p sps) (h : Rewritten ext sps s t) :
    (scrape ext p t).1 = (scrape ext p s).1 ∧ (scrape ext p t).2.1 = (scrape ext p s).2.1 :=
  scrape_rewritten hm hp h

/-- C118 for calls, in safe mode or not, whose parameters are complete. -/
theorem C118_call (ext : Ext) (wb wb2 : List Nat) (w w2 : World) (given given2 : Given) (name name2 : Str)
    (safe preserve preserve2 : Bool) (r r2 : Nat) {p : Params} {sps : List SParams} (hreq : Requested ext wb w name r)
    (hreq2 : Requested ext wb2 w2 name2 r2) (hwb : ∀ q ∈ wb, q < w.nextSheet ∧ WellFormed (w.sheets q))
    (hwb2 : ∀ q ∈ wb2, q < w2.nextSheet ∧ WellFormed (w2.sheets q)) (hgiven : GivenWith given w p)
    (hgiven2 : GivenWith given2 w2 p) (hp : HasSeries p sps) (hne : sps ≠ [])
    (hm : ∀ sp ∈ sps, sp.timeMulticolumn = false) (h : Rewritten ext sps (w.sheets r) (w2.sheets r2)) :
    outcome (getDataFrames ext wb2 given2 name2 safe preserve2 w2) =
      outcome (getDataFrames ext wb given name safe preserve w) := by
  refine calls_congr hreq hreq2 hwb hwb2 hgiven hgiven2 h.title fun q hq => ?_
  have hc := complete_series hp hne
  have : q = p := by
    unfold Tried discoverParameters at hq
    rw [hc] at hq
    exact hq
  subst this
  exact (C118_dates ext hm hp h).1

/-- C118 for calls that may leave parameters out. -/
theorem C118_left_out (ext : Ext) (wb wb2 : List Nat) (w w2 : World) (given given2 : Given) (name name2 : Str)
    (safe preserve preserve2 : Bool) (r r2 : Nat) {p : Params} (N : Nat) (hreq : Requested ext wb w name r)
    (hreq2 : Requested ext wb2 w2 name2 r2) (hwb : ∀ q ∈ wb, q < w.nextSheet ∧ WellFormed (w.sheets q))
    (hwb2 : ∀ q ∈ wb2, q < w2.nextSheet ∧ WellFormed (w2.sheets q)) (hgiven : GivenWith given w p)
    (hgiven2 : GivenWith given2 w2 p) (ht : (w2.sheets r2).title = (w.sheets r).title) (hp : GivenFor p N)
    (hd : ∀ n, LeftOut p n → Discoverable n)
    (h : ∀ q, Completion p N q → ∃ sps, HasSeries q sps ∧ (∀ sp ∈ sps, sp.timeMulticolumn = false) ∧
      Rewritten ext sps (w.sheets r) (w2.sheets r2)) :
    outcome (getDataFrames ext wb2 given2 name2 safe preserve2 w2) =
      outcome (getDataFrames ext wb given name safe preserve w) := by
  refine calls_congr hreq hreq2 hwb hwb2 hgiven hgiven2 ht fun q hq => ?_
  obtain ⟨sps, h1, h2, h3⟩ := h q (tried_completion hp hd hq)
  exact (C118_dates ext h2 h1 h3).1

/-! ### Examples -/

namespace Sample

/-- Three months of two series. -/
def namedMonths : Sheet := rows
  [[.str c!"fecha", .str c!"PBI", .str c!"IPC"],
   [.str c!"Enero 1991", .int 10, .int 1],
   [.str c!"Feb", .int 11, .int 2],
   [.str c!"March", .int 12, .int 3]]

/-- The same months in other letters and with blanks around. -/
def shoutedMonths : Sheet := { namedMonths with
  cells := fun r c =>
    if r = 2 ∧ c = 1 then .str c!" ENERO 1991" else if r = 3 ∧ c = 1 then .str c!"feb " else namedMonths.cells r c }

theorem months_other {r c : Int} (h1 : ¬ (r = 2 ∧ c = 1)) (h2 : ¬ (r = 3 ∧ c = 1)) :
    shoutedMonths.cells r c = namedMonths.cells r c := by
  show (if r = 2 ∧ c = 1 then _ else if r = 3 ∧ c = 1 then _ else _) = _
  rw [if_neg h1, if_neg h2]

def namedSeries (header : Str) : SParams := { composed c!"M" with headerCoord := header }

theorem months_rewritten :
    Rewritten extNames [namedSeries c!"B1", namedSeries c!"C1"] namedMonths shoutedMonths where
  title := rfl
  rows := rfl
  cols := rfl
  dates := by
    rintro sq hsq r c -
    simp only [List.mem_cons, List.not_mem_nil, or_false] at hsq
    have hmy : MonthsOrYears sq := by rcases hsq with rfl | rfl <;> exact ⟨rfl, .inl rfl⟩
    by_cases h1 : r = 2 ∧ c = 1
    · obtain ⟨rfl, rfl⟩ := h1
      exact .texts (a := c!"Enero 1991") (b := c!" ENERO 1991")
        ⟨.inr ⟨hmy, by unfold SameLetters; decide⟩, by decide, by decide, rfl, rfl⟩
    by_cases h2 : r = 3 ∧ c = 1
    · obtain ⟨rfl, rfl⟩ := h2
      exact .texts (a := c!"Feb") (b := c!"feb ")
        ⟨.inr ⟨hmy, by unfold SameLetters; decide⟩, by decide, by decide, rfl, rfl⟩
    rw [months_other h1 h2]
    exact .same _
  headers := by
    intro sp hsp a ha r c hrc
    simp only [List.mem_cons, List.not_mem_nil, or_false] at hsp
    refine months_other (fun h => ?_) (fun h => ?_) <;>
    · rcases hsp with rfl | rfl <;> simp [namedSeries, composed, monthly] at ha <;> subst ha <;>
        revert hrc <;> rw [h.1, h.2] <;> decide
  values := by
    rintro sp hsp r c ⟨hr, hc, pos, h1, h2, h3⟩
    simp only [List.mem_cons, List.not_mem_nil, or_false] at hsp
    refine months_other (fun h => ?_) (fun h => ?_) <;>
    · rcases hsp with rfl | rfl
      · have e : coordOf c!"B1" = .ok (1, 2) := by decide
        rw [show (namedSeries c!"B1").headerCoord = c!"B1" from rfl, e] at h1
        cases h1
        have h4 : c = 2 := h3.2
        omega
      · have e : coordOf c!"C1" = .ok (1, 3) := by decide
        rw [show (namedSeries c!"C1").headerCoord = c!"C1" from rfl, e] at h1
        cases h1
        have h4 : c = 3 := h3.2
        omega

end Sample

/-- Whatever a call gives for the months, it gives for the months in other letters. -/
example (safe preserve : Bool) :
    outcome (getDataFrames Sample.extNames [0] (.object 0) [] safe preserve (Sample.world Sample.shoutedMonths
      (Sample.paramsOf [Sample.namedSeries c!"B1", Sample.namedSeries c!"C1"]))) =
    outcome (getDataFrames Sample.extNames [0] (.object 0) [] safe preserve (Sample.world Sample.namedMonths
      (Sample.paramsOf [Sample.namedSeries c!"B1", Sample.namedSeries c!"C1"]))) := by
  have hs : WellFormed Sample.namedMonths := Sample.rows_wellFormed (by decide) (by decide) (by decide)
  have hs2 : WellFormed Sample.shoutedMonths := by
    refine ⟨hs.rows, hs.cols, fun r c h => ?_⟩
    have h' : ¬ (1 ≤ r ∧ r ≤ 4 ∧ 1 ≤ c ∧ c ≤ 3) := h
    rw [Sample.months_other (by omega) (by omega)]
    exact hs.outside r c h
  have h1 : ∀ (s : Sheet) (p : Params), WellFormed s → ∀ q ∈ [0], q < (Sample.world s p).nextSheet ∧
      WellFormed ((Sample.world s p).sheets q) :=
    fun s p hs q hq => by rw [List.mem_singleton] at hq; subst hq; exact ⟨Nat.one_pos, hs⟩
  exact C118_call Sample.extNames [0] [0] _ _ (.object 0) (.object 0) [] [] safe preserve preserve 0 0
    ⟨by simp, by simp, .inl ⟨rfl, rfl⟩⟩ ⟨by simp, by simp, .inl ⟨rfl, rfl⟩⟩ (h1 _ _ hs) (h1 _ _ hs2)
    (.inl ⟨0, rfl, rfl⟩) (.inl ⟨0, rfl, rfl⟩)
    (p := Sample.paramsOf [Sample.namedSeries c!"B1", Sample.namedSeries c!"C1"])
    (sps := [Sample.namedSeries c!"B1", Sample.namedSeries c!"C1"]) (fun _ => rfl) (by simp)
    (by intro sp h; simp only [List.mem_cons, List.not_mem_nil, or_false] at h; rcases h with rfl | rfl <;> rfl)
    Sample.months_rewritten

/-- Which is this data frame. -/
example : outcome (getDataFrames Sample.extNames [0] (.object 0) [] false true (Sample.world Sample.shoutedMonths
      (Sample.paramsOf [Sample.namedSeries c!"B1", Sample.namedSeries c!"C1"]))) =
    .ok (.dfs (.one ⟨c!"MS", [⟨1991, 1, 1, 0⟩, ⟨1991, 2, 1, 0⟩, ⟨1991, 3, 1, 0⟩], [c!"PBI", c!"IPC"],
      [[.fin 10, .fin 11, .fin 12], [.fin 1, .fin 2, .fin 3]]⟩), c!"S") := by
  decide +kernel

/-- Letters matter for quarters: a Roman number in small letters is passed over, and the text for the fourth quarter
of 2000 is read as the first quarter of 2000, without an exception. -/
theorem C118_quarter_letters :
    ∃ (ext : Ext) (sp : SParams) (a b : Str), sp.timeComposed = true ∧ sp.frequency = c!"Q" ∧ SameLetters a b ∧
      (parseTimeValue ext sp none (.str a) none .none).1 = .ok ⟨2000, 10, 1, 0⟩ ∧
      (parseTimeValue ext sp none (.str b) none .none).1 = .ok ⟨2000, 1, 1, 0⟩ :=
  ⟨Sample.ext0, Sample.composed c!"Q", c!"2000 IV", c!"2000 iv", rfl, rfl, by unfold SameLetters; decide,
    by decide +kernel, by decide +kernel⟩

end Xls
