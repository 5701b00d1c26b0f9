/-
Property C85: every data frame that is given back is sound.
-/
import Verif.Lemmas.Result
import Verif.Props.Scraper

set_option autoImplicit false

namespace Xls

open Spec

/-- C85. Whatever the workbook, the parameters and the flags: if `get_data_frames` returns, every data frame
in the answer has real dates in increasing order without gaps, named columns that differ from one another
and one value for each date in each column. -/
theorem C85_sound_frames (ext : Ext) (wb : List Nat) (given : Given) (name : Str) (safe preserve : Bool)
    (w w' : World) (a : Answer) (nm : Str) (pr : Nat) (he : RealDates ext)
    (hwb : ∀ r ∈ wb, r < w.nextSheet ∧ SheetValid (w.sheets r))
    (h : getDataFrames ext wb given name safe preserve w = (.ok (a, nm, pr), w'))
    (f : Frame) (hf : InAnswer f a) : SoundFrame ext f :=
  getDataFrames_yields (fun hs hsc => scrape_sound he hs hsc) (fun _ hs => copySheet_valid hs)
    (fun r hr => (hwb r hr).1) h (fun r hr _ => (hwb r hr).2) f hf

/-- The libraries of the examples, with the week days of the first two weeks of 2018. -/
def Sample.extWeek : Ext :=
  { Sample.ext0 with
    businessDays := fun a _ => if a = ⟨2018, 1, 4, 0⟩ then
      [⟨2018, 1, 4, 0⟩, ⟨2018, 1, 5, 0⟩, ⟨2018, 1, 8, 0⟩, ⟨2018, 1, 9, 0⟩] else [] }

theorem Sample.extWeek_real : RealDates Sample.extWeek := by
  refine ⟨fun _ _ _ h => (by cases h), fun _ _ h => (by cases h), fun a z => ?_⟩
  show Increasing (if a = ⟨2018, 1, 4, 0⟩ then _ else _) ∧ ∀ t ∈ (if a = ⟨2018, 1, 4, 0⟩ then _ else _), _
  by_cases h : a = ⟨2018, 1, 4, 0⟩
  · rw [if_pos h]
    constructor
    · unfold Increasing
      decide
    · decide
  · rw [if_neg h]
    exact ⟨List.Pairwise.nil, by simp⟩

/-- A column of working days. -/
def Sample.weekSheet : Sheet := Sample.rows
  [[.str c!"fecha", .str c!"PBI", .str c!"IPC"],
   [Sample.day 2018 1 4, .int 10, .int 5],
   [Sample.day 2018 1 5, .int 11, .int 3],
   [Sample.day 2018 1 8, .int 12, .int 4],
   [Sample.day 2018 1 9, .int 13, .int 2]]

/-- The parameters for it: daily, possibly with missing values. -/
def Sample.weekTable (missings : Bool) : Params := fun n =>
  if n = .frequency then .list [.str c!"D", .str c!"D"] else Sample.gapTable missings n

theorem Sample.rows_valid {vs : List (List Cell)} (h : ∀ row ∈ vs, ∀ v ∈ row, ∀ t, v = .dt t → ValidTime t) :
    SheetValid (Sample.rows vs) := by
  intro r c t ht
  have e : (Sample.rows vs).cells r c =
      if 1 ≤ c ∧ 1 ≤ r then (vs.getD (r.toNat - 1) []).getD (c.toNat - 1) .none else .none := rfl
  rw [e] at ht
  split at ht
  · rw [List.getD_eq_getElem?_getD, List.getD_eq_getElem?_getD] at ht
    cases hr : vs[r.toNat - 1]? with
    | none => rw [hr] at ht; cases ht
    | some row =>
      rw [hr, Option.getD_some] at ht
      cases hv : row[c.toNat - 1]? with
      | none => rw [hv] at ht; cases ht
      | some v =>
        rw [hv, Option.getD_some] at ht
        exact h row (List.mem_of_getElem? hr) v (List.mem_of_getElem? hv) t ht
  · cases ht

/-- Days that leave out the weekend come out as business days. -/
theorem Sample.week_answer :
    (getDataFrames Sample.extWeek [0] (.object 0) [] false true
      (Sample.world Sample.weekSheet (Sample.weekTable true))).1 =
    .ok (.dfs (.one ⟨c!"B", [⟨2018, 1, 4, 0⟩, ⟨2018, 1, 5, 0⟩, ⟨2018, 1, 8, 0⟩, ⟨2018, 1, 9, 0⟩],
      [c!"PBI", c!"IPC"], [[.fin 10, .fin 11, .fin 12, .fin 13], [.fin 5, .fin 3, .fin 4, .fin 2]]⟩),
      c!"S", 0) := by decide +kernel

/-- Two tables side by side, without saying whether values are missing: two data frames in each of the two
results, of which one is kept. -/
theorem Sample.side_answer :
    (getDataFrames Sample.extWeek [0] (.object 0) [] true true
      (Sample.world Sample.sideSheet Sample.sideUnknown)).1 =
    .ok (.dfs (.many Sample.sideFrames), c!"S", 1) := by decide +kernel

example : ∀ f ∈ Sample.sideFrames, SoundFrame Sample.extWeek f := by
  intro f hf
  obtain ⟨w', h⟩ : ∃ w', getDataFrames Sample.extWeek [0] (.object 0) [] true true
      (Sample.world Sample.sideSheet Sample.sideUnknown) =
      (.ok (.dfs (.many Sample.sideFrames), c!"S", 1), w') := ⟨_, by rw [← Sample.side_answer]⟩
  refine C85_sound_frames _ _ _ _ _ _ _ _ _ _ _ Sample.extWeek_real ?_ h f hf
  intro r hr
  rw [List.mem_singleton] at hr
  subst hr
  refine ⟨by decide, Sample.rows_valid ?_⟩
  simp only [List.mem_cons, List.not_mem_nil, or_false, forall_eq_or_imp, forall_eq, Sample.day]
  simp only [reduceCtorEq, false_implies, implies_true, true_and, Cell.dt.injEq, forall_eq']
  decide

end Xls
