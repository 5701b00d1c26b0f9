/-
C05: tables of semesters.
-/
import Verif.Props.Tables

set_option autoImplicit false

namespace Xls

open Spec

/-- The dates are each six months after the one before, on the same day at the same time. -/
def Spec.HalfYears : List Time → Prop
  | [] => True
  | [_] => True
  | a :: b :: rest =>
    (monthCount b = monthCount a + 6 ∧ b.day = a.day ∧ b.us = a.us) ∧ HalfYears (b :: rest)

theorem halfYears_run : ∀ {ts : List Time}, HalfYears ts → (∀ t ∈ ts, ValidTime t ∧ t.day = 1) → PeriodRun c!"S" ts
  | [], _, _ => trivial
  | [_], _, _ => trivial
  | a :: b :: rest, ⟨⟨h1, h2, h3⟩, h4⟩, hd => by
    refine ⟨⟨.months 6, rfl, ?_⟩, halfYears_run h4 fun t ht => hd t (List.mem_cons_of_mem _ ht)⟩
    refine ⟨by omega, ?_, h3⟩
    have ha := (hd a (by simp)).2
    rw [h2, ha]
    show 1 = min 1 (monthLength b.year b.month)
    have := (hd b (by simp)).1.day_le
    have := (hd b (by simp)).2
    omega

/-- C05, the part that holds. If the parameters allow for missing values, a table of semesters is read as
such: dates six months apart, each on the first of a month, are accepted as they are and become the index, with
the values under them. Missing: tables whose parameters do not allow for missing values
(`C05_semester_index_violated`), and `Implicit` among the missing values. -/
theorem C05_semester_table_partial {ext : Ext} {p : Params} {s : Sheet} {sps : List SParams} {sp : SParams}
    {timeHeader : TimeHeader} {start : Int} {al : Align} {style : Style} {tr tc last : Int}
    {ots : List (Option Time)} {series : List (Str × List Num)} (hp : HasSeries p sps)
    (h0 : sps.head? = some sp) (hsame : SameIndex sps timeHeader c!"S" start 0 al)
    (hmissings : sp.missings = true) (hmarker : NotImplicitString sp.missingValue)
    (ht : TimeTable ext sp s style tr tc last ots)
    (hv : ∀ t, some t ∈ ots → ValidTime t ∧ Representable t ∧ t.day = 1) (hhalf : HalfYears (ots.filterMap id))
    (hser : List.Forall₂ (fun sp nv => SeriesIs ext s tr tc last ots (ots.filterMap id) sp nv.1 nv.2) sps series) :
    ∃ columns p' s', scrape ext p s =
        (.ok [⟨c!"6MS", ots.filterMap id, columns, series.map Prod.snd⟩], p', s') ∧
      ColumnsOf (series.map Prod.fst) columns ∧ DatesWritten s s' al tr tc start ots := by
  have hm : ∀ t ∈ ots.filterMap id, ValidTime t ∧ Representable t ∧ t.day = 1 := by
    intro t hx
    obtain ⟨o, ho, rfl⟩ := List.mem_filterMap.1 hx
    exact hv t ho
  exact C76_table hp h0 hsame ht
    { frequency := .inr ⟨hsame.frequency sp (List.mem_of_head? h0), hmissings⟩
      valid := fun t h => (hm t h).1
      representable := fun t h => (hm t h).2.1
      start := fun a ha => by
        rw [hsame.frequency sp (List.mem_of_head? h0)]
        exact (hm a (List.mem_of_head? ha)).2.2
      run := by
        rw [hsame.frequency sp (List.mem_of_head? h0)]
        exact halfYears_run hhalf fun t h => ⟨(hm t h).1, (hm t h).2.2⟩
      sub := List.Sublist.refl _
      first := rfl
      last := rfl
      complete := fun _ => rfl
      marker := hmarker } hser

namespace Sample

/-- Semesters written as texts, the year only in the first. -/
def semesterSheet : Sheet := rows
  [[.str c!"fecha", .str c!"PBI"],
   [.str c!"I.S.03", .int 10],
   [.str c!"II.S.", .str c!"..."],
   [.str c!"I.S.04", .int 12]]

def semesterSeries : SParams :=
  { monthly with
    timeComposed := true, frequency := c!"S", missings := true, missingValue := .list [.str c!"..."] }

theorem semester_reads : Reads ext0 .semester none (cellsAlong semesterSheet .vertical 1 1 2 4)
    [some ⟨2003, 1, 1, 0⟩, some ⟨2003, 7, 1, 0⟩, some ⟨2004, 1, 1, 0⟩] :=
  .date (.semesterAndYear (y := 2003) (q := 1) (lead := []) (sep := c!".S.") (tail := []) (by decide) (by decide)
      (by decide) (.inl rfl) (by decide) (.inl (by decide))) (show ¬ ∀ c ∈ c!"I.S.03", isSpace c = true by decide)
  (.date (.semesterAlone (l := ⟨2003, 1, 1, 0⟩) (q := 2) (lead := []) (sep := c!".S.") (by decide) (by decide)
      (by decide) (.inl rfl) (by decide)) (show ¬ ∀ c ∈ c!"II.S.", isSpace c = true by decide)
  (.date (.semesterAndYear (y := 2004) (q := 1) (lead := []) (sep := c!".S.") (tail := []) (by decide) (by decide)
      (by decide) (.inl rfl) (by decide) (.inl (by decide))) (show ¬ ∀ c ∈ c!"I.S.04", isSpace c = true by decide)
    .nil))

theorem semester_table : TimeTable ext0 semesterSeries semesterSheet .semester 1 1 4
    [some ⟨2003, 1, 1, 0⟩, some ⟨2003, 7, 1, 0⟩, some ⟨2004, 1, 1, 0⟩] where
  header := .single (coord := c!"A1") rfl rfl (by decide)
  plain := fun _ _ _ => plainAt_single (coord := c!"A1") rfl _ _
  fits := ⟨rfl, rfl⟩
  starts := by decide
  two := by decide
  aligned := .inl rfl
  offset := rfl
  reads := semester_reads
  first := ⟨_, rfl⟩
  ends := ⟨_, rfl⟩
  gaps := by intro h; simp at h
  shortGaps := by
    intro i h
    have := h 0 (by decide)
    rcases i with _ | _ | _ | i <;> simp at this
  within := by decide
  after := .inl (by decide)

end Sample

/-- Three semesters, the second without a value. -/
example : ∃ columns p' s', scrape Sample.ext0 (Sample.paramsOf [Sample.semesterSeries]) Sample.semesterSheet =
      (.ok [⟨c!"6MS", [⟨2003, 1, 1, 0⟩, ⟨2003, 7, 1, 0⟩, ⟨2004, 1, 1, 0⟩], columns, [[.fin 10, .nan, .fin 12]]⟩],
        p', s') ∧
    ColumnsOf [c!"PBI"] columns ∧ DatesWritten Sample.semesterSheet s' .vertical 1 1 2
      [some ⟨2003, 1, 1, 0⟩, some ⟨2003, 7, 1, 0⟩, some ⟨2004, 1, 1, 0⟩] :=
  C05_semester_table_partial (sp := Sample.semesterSeries) (series := [(c!"PBI", [.fin 10, .nan, .fin 12])])
    (timeHeader := .single c!"A1") (fun _ => rfl) rfl
    (.ofSingle (by decide) (by decide) (by decide) (by decide) (by decide) (by decide)) rfl trivial
    Sample.semester_table (by
      intro t ht
      simp at ht
      rcases ht with rfl | rfl | rfl <;> decide)
    ⟨⟨rfl, rfl, rfl⟩, ⟨rfl, rfl, rfl⟩, trivial⟩
    (.cons
      { apart := by
          intro coord hm r c hrc
          have : coord = c!"B1" := by simpa [Sample.semesterSeries, Sample.monthly] using hm
          subst this
          have e : coordOf c!"B1" = .ok (1, 2) := by decide
          rw [e] at hrc
          cases hrc
          decide
        cells := ⟨1, 2, by decide, .marked (markers := [.str c!"..."]) rfl rfl rfl rfl (by simp) (by decide +kernel)⟩
        name := by
          have := NameIs.composed (ext := Sample.ext0) (sp := Sample.semesterSeries) (s := Sample.semesterSheet)
            (r := 1) (c := 2) (texts := []) (.inl rfl) (by decide) .nil
          exact this
        size := rfl
        ends := .inl rfl } .nil)

/-- C05 (violation, for the whole table). The same semesters, all with values, are refused or changed if the
parameters do not allow for missing values: July is put one second after January. -/
theorem C05_semester_table_violated :
    let s := Sample.column [.str c!"fecha", Sample.day 2003 1 1, Sample.day 2003 7 1, Sample.day 2004 1 1]
    let sp := { Sample.monthly with frequency := c!"S" }
    (cleanTimeIndex Sample.ext0 sp s).2.cells 3 1 = .dt ⟨2003, 1, 1, 1000000⟩ := by
  decide +kernel

end Xls
