/-
C107: what a call depends on. With it C104 and C105 for calls that leave parameters out.
-/
import Verif.Lemmas.Determined
import Verif.Props.Display

set_option autoImplicit false

namespace Xls

open Spec

/-- C107. Two calls that ask for the same worksheet with the same parameters give the same answer, or raise the same
exception. The other worksheets do not matter, nor do other `Parameters` objects and earlier calls, the spelling of
the name, whether the workbook is copied first, and whether an object, a dictionary or a file is passed. The
parameters may be complete or not, in safe mode or not. -/
theorem C107_determined (ext : Ext) (wb wb2 : List Nat) (w w2 : World) (given given2 : Given) (name name2 : Str)
    (safe preserve preserve2 : Bool) (r r2 : Nat) (p : Params) (hreq : Requested ext wb w name r)
    (hreq2 : Requested ext wb2 w2 name2 r2) (hwb : ∀ q ∈ wb, q < w.nextSheet ∧ WellFormed (w.sheets q))
    (hwb2 : ∀ q ∈ wb2, q < w2.nextSheet ∧ WellFormed (w2.sheets q)) (hgiven : GivenWith given w p)
    (hgiven2 : GivenWith given2 w2 p) (hsame : w2.sheets r2 = w.sheets r) :
    outcome (getDataFrames ext wb2 given2 name2 safe preserve2 w2) =
      outcome (getDataFrames ext wb given name safe preserve w) :=
  calls_congr hreq hreq2 hwb hwb2 hgiven hgiven2 (by rw [hsame]) fun q _ => by rw [hsame]

/-- C104 for calls that may leave parameters out, in safe mode or not: two worksheets with the same title and
values give the same answer or exception if the condition holds for all completions that are tried. -/
theorem C104_left_out_partial (ext : Ext) (wb wb2 : List Nat) (w w2 : World) (given given2 : Given) (name name2 : Str)
    (safe preserve preserve2 : Bool) (r r2 : Nat) (p : Params) (N : Nat) (hreq : Requested ext wb w name r)
    (hreq2 : Requested ext wb2 w2 name2 r2) (hwb : ∀ q ∈ wb, q < w.nextSheet ∧ WellFormed (w.sheets q))
    (hwb2 : ∀ q ∈ wb2, q < w2.nextSheet ∧ WellFormed (w2.sheets q)) (hgiven : GivenWith given w p)
    (hgiven2 : GivenWith given2 w2 p) (hsame : SameValues (w.sheets r) (w2.sheets r2)) (hp : GivenFor p N)
    (hd : ∀ n, LeftOut p n → Discoverable n)
    (hin : ∀ q, Completion p N q → ∃ sps, HasSeries q sps ∧
      Settled (min (w.sheets r).maxRow (w2.sheets r2).maxRow) sps) :
    outcome (getDataFrames ext wb2 given2 name2 safe preserve2 w2) =
      outcome (getDataFrames ext wb given name safe preserve w) := by
  refine calls_congr hreq hreq2 hwb hwb2 hgiven hgiven2 hsame.title fun q hq => ?_
  obtain ⟨sps, h1, h2⟩ := hin q (tried_completion hp hd hq)
  exact (C104_empty_partial ext h1 (hwb r hreq.1).2 (hwb2 r2 hreq2.1).2 hsame h2).1

/-- C105 for calls that may leave parameters out: the answer or exception is the same after a range of the worksheet
was printed. -/
theorem C105_call_partial (ext : Ext) (wb : List Nat) (w w2 : World) (given given2 : Given) (name : Str)
    (safe preserve : Bool) (r : Nat) (p : Params) (N : Nat) (r1 c1 r2 c2 : Nat) (width : Int)
    (hreq : Requested ext wb w name r) (hwb : ∀ q ∈ wb, q < w.nextSheet ∧ WellFormed (w.sheets q))
    (hn : w2.nextSheet = w.nextSheet)
    (hprint : ∀ q, w2.sheets q = if q = r then (printRange ext (w.sheets r) r1 c1 r2 c2 width).2 else w.sheets q)
    (hgiven : GivenWith given w p) (hgiven2 : GivenWith given2 w2 p) (hp : GivenFor p N)
    (hd : ∀ n, LeftOut p n → Discoverable n)
    (hin : ∀ q, Completion p N q → ∃ sps, HasSeries q sps ∧ Settled (w.sheets r).maxRow sps) :
    outcome (getDataFrames ext wb given2 name safe preserve w2) =
      outcome (getDataFrames ext wb given name safe preserve w) := by
  obtain ⟨h1, h2, h3⟩ := printRange_values ext (w.sheets r) r1 c1 r2 c2 width (hwb r hreq.1).2
  have hr : w2.sheets r = (printRange ext (w.sheets r) r1 c1 r2 c2 width).2 := by rw [hprint, if_pos rfl]
  have htitle : ∀ q, (w2.sheets q).title = (w.sheets q).title := by
    intro q
    rw [hprint]
    split
    · next h => subst h; exact h1.title
    · rfl
  refine C104_left_out_partial ext wb wb w w2 given given2 name name safe preserve preserve r r p N hreq ?_ hwb ?_
    hgiven hgiven2 (by rw [hr]; exact h1) hp hd ?_
  · unfold Requested
    simp only [htitle]
    exact hreq
  · intro q hq
    rw [hn]
    refine ⟨(hwb q hq).1, ?_⟩
    rw [hprint]
    split
    · exact h2
    · exact (hwb q hq).2
  · rw [hr, Int.min_eq_left h3]
    exact hin

/-! ### Examples -/

/-- One workbook with one worksheet, another one with two and more objects in memory; `missings` is left out. -/
example (safe : Bool) : outcome (getDataFrames Sample.ext0 [3, 1] (.object 7) [] safe true
      ⟨fun r => if r = 3 then Sample.gapSheet else { Sample.textSheet with title := c!"otra" }, 5,
        fun r => if r = 7 then Sample.gapUnknown else Sample.gapTable true, 9⟩) =
    outcome (getDataFrames Sample.ext0 [0] (.object 0) [] safe false
      (Sample.world Sample.gapSheet Sample.gapUnknown)) := by
  refine C107_determined Sample.ext0 [0] [3, 1] _ _ (.object 0) (.object 7) [] [] safe false true 0 3 Sample.gapUnknown
    ⟨by simp, by simp, .inl ⟨rfl, rfl⟩⟩ ⟨by simp, by decide, .inl ⟨rfl, rfl⟩⟩ ?_ ?_ (.inl ⟨0, rfl, rfl⟩)
    (.inl ⟨7, rfl, rfl⟩) rfl
  · intro q hq
    rw [List.mem_singleton] at hq
    subst hq
    exact ⟨by decide, Sample.gap_wellFormed⟩
  · have h : WellFormed Sample.textSheet := Sample.rows_wellFormed (by decide) (by decide) (by decide)
    intro q hq
    simp only [List.mem_cons, List.not_mem_nil, or_false] at hq
    rcases hq with rfl | rfl
    · exact ⟨by decide, Sample.gap_wellFormed⟩
    · exact ⟨by decide, ⟨h.rows, h.cols, h.outside⟩⟩

/-- What both give: the first attempt, without missing values, fails. -/
example : outcome (getDataFrames Sample.ext0 [0] (.object 0) [] false false
      (Sample.world Sample.gapSheet Sample.gapUnknown)) = .ok (.dfs (.one Sample.gapFrame), c!"S") := by
  decide +kernel

namespace Sample

/-- The quarters, nothing said about blank rows. -/
def quarterUnknown : Params := fun n => if n = .blankRows then .none else paramsOf [quarterSeries c!"B1"] n

theorem quarterUnknown_leftOut (n : Name) : LeftOut quarterUnknown n ↔ n = .blankRows := by
  constructor
  · rintro ⟨h, _⟩
    cases n <;> first | rfl | cases h
  · rintro rfl
    exact ⟨rfl, by decide⟩

theorem quarterUnknown_given : GivenFor quarterUnknown 1 where
  num := by decide
  pos := by decide
  each := by
    intro n h1 h2
    cases n <;> first
      | exact absurd rfl h2
      | exact absurd (by decide) h1
      | exact .inl rfl
      | exact .inr ⟨_, rfl, rfl⟩
  timeHeaderC := ⟨_, rfl, by decide⟩

theorem quarterUnknown_discoverable (n : Name) (h : LeftOut quarterUnknown n) : Discoverable n := by
  rw [quarterUnknown_leftOut] at h
  subst h
  simp [Discoverable, choices]

theorem quarterUnknown_settled (q : Params) (h : Completion quarterUnknown 1 q) :
    ∃ sps, HasSeries q sps ∧ Settled 6 sps := by
  obtain ⟨v, hv, hq⟩ := (h .blankRows).1 ((quarterUnknown_leftOut _).2 rfl)
  obtain ⟨b, rfl⟩ : ∃ b, v = .bool b := by
    simp only [choices, List.mem_cons, List.not_mem_nil, or_false] at hv
    rcases hv with rfl | rfl
    exacts [⟨true, rfl⟩, ⟨false, rfl⟩]
  refine ⟨[{ quarterSeries c!"B1" with blankRows := b }], ?_, ?_, .inl ?_⟩
  · intro n
    by_cases hn : n = .blankRows
    · subst hn
      exact hq
    · rw [(h n).2 fun hl => hn ((quarterUnknown_leftOut n).1 hl)]
      unfold quarterUnknown
      rw [if_neg hn]
      cases n <;> first | rfl | exact absurd rfl hn
  · intro sp hsp
    rw [List.mem_singleton] at hsp
    subst hsp
    exact .inl ⟨rfl, show (quarterSeries c!"B1").dataStarts ≤ 6 by decide⟩
  · intro sp hsp
    rw [List.mem_singleton] at hsp
    subst hsp
    rfl

end Sample

/-- Empty rows below the quarters. -/
example (safe : Bool) :
    outcome (getDataFrames Sample.ext0 [0] (.object 0) [] safe true (Sample.world Sample.longSheet Sample.quarterUnknown)) =
      outcome (getDataFrames Sample.ext0 [0] (.object 0) [] safe true
        (Sample.world Sample.quarterSheet Sample.quarterUnknown)) := by
  have hs : WellFormed Sample.quarterSheet := Sample.rows_wellFormed (by decide) (by decide) (by decide)
  have h1 : ∀ (s : Sheet), WellFormed s → ∀ q ∈ [0], q < (Sample.world s Sample.quarterUnknown).nextSheet ∧
      WellFormed ((Sample.world s Sample.quarterUnknown).sheets q) :=
    fun s hs q hq => by rw [List.mem_singleton] at hq; subst hq; exact ⟨Nat.one_pos, hs⟩
  exact C104_left_out_partial Sample.ext0 [0] [0] _ _ (.object 0) (.object 0) [] [] safe true true 0 0
    Sample.quarterUnknown 1 ⟨by simp, by simp, .inl ⟨rfl, rfl⟩⟩ ⟨by simp, by simp, .inl ⟨rfl, rfl⟩⟩
    (h1 _ hs) (h1 _ Sample.longSheet_wellFormed) (.inl ⟨0, rfl, rfl⟩) (.inl ⟨0, rfl, rfl⟩) ⟨rfl, rfl⟩
    Sample.quarterUnknown_given Sample.quarterUnknown_discoverable Sample.quarterUnknown_settled

/-- The quarters after the default range was printed. -/
example (safe : Bool) :
    outcome (getDataFrames Sample.ext0 [0] (.object 0) [] safe true
        ⟨fun q => if q = 0 then (printRange Sample.ext0 Sample.quarterSheet 1 1 10 5 15).2 else Sample.quarterSheet, 1,
          fun _ => Sample.quarterUnknown, 1⟩) =
      outcome (getDataFrames Sample.ext0 [0] (.object 0) [] safe true
        (Sample.world Sample.quarterSheet Sample.quarterUnknown)) := by
  refine C105_call_partial Sample.ext0 [0] _ _ (.object 0) (.object 0) [] safe true 0 Sample.quarterUnknown 1 1 1 10 5 15
    ⟨by simp, by simp, .inl ⟨rfl, rfl⟩⟩ ?_ rfl (fun _ => rfl) (.inl ⟨0, rfl, rfl⟩) (.inl ⟨0, rfl, rfl⟩)
    Sample.quarterUnknown_given Sample.quarterUnknown_discoverable Sample.quarterUnknown_settled
  intro q hq
  rw [List.mem_singleton] at hq
  subst hq
  exact ⟨by decide, Sample.rows_wellFormed (by decide) (by decide) (by decide)⟩

end Xls
