/-
Property C110: the order in which values are tried for parameters that were left out. The full statement, that
they are tried by how sure the usual values are (`leftOutBySureness`), is false of the code
(`C110_surest_first_violated`, `C110_answer_violated`): it holds for the sets of parameters of
`C110_order_partial`.
-/
import Verif.Lemmas.Likely
import Verif.Props.LeftOut
import Verif.Props.WorkingDays

set_option autoImplicit false

namespace Xls

open Spec

/-- C110. The attempts and their order, whatever was left out: the choices as one counts, where the names change
in the order in which they come up from both ends of the list. -/
theorem C110_exact_partial (p : Params) (N : Nat) (hp : GivenFor p N) (hne : p.getMissings ≠ [])
    (hd : ∀ n ∈ p.getMissings, Discoverable n) :
    discoverParameters p = .ok (.new
      ((countedChoices (fromBothEnds p.getMissings p.getMissings.length sureness).reverse).map
        (withChoice p N p.getMissings))) := by
  have hnd := missings_nodup p
  have hlen : p.getMissings.length = (p.getMissings.length - 1) + 1 := by
    have := List.length_pos_of_ne_nil hne
    omega
  obtain ⟨e, hperm⟩ := combinations_order (p.getMissings.length - 1) p.getMissings
    likelinessOrder hlen hnd (by decide) fun m hm => ⟨(discoverable_iff m).1 (hd m hm), hd m hm⟩
  rw [← hlen, sureness_eq] at e hperm
  obtain ⟨ns, hns⟩ : ∃ ns, (fromBothEnds p.getMissings p.getMissings.length sureness).reverse = ns := ⟨_, rfl⟩
  have hp' : ns.Perm p.getMissings := by
    rw [← hns]
    exact (List.reverse_perm _).trans hperm
  rw [hns] at e ⊢
  have hatt : ∀ c ∈ ways ns, attemptOf p c = .ok (withChoice p N p.getMissings (chosen c)) := by
    intro c hc
    obtain ⟨hc1, hc2⟩ := ways_names ns c hc
    obtain ⟨h1, h2⟩ := assignAll_ok hp.pos c p hp.num hc2
    have hasg : assigned N c p = withChoice p N p.getMissings (chosen c) := by
      rw [assigned_eq c p (by rw [hc1]; exact hp'.nodup_iff.2 hnd), hc1, withChoice_perm hp']
    unfold attemptOf
    rw [h1]
    dsimp only
    rw [hasg] at h2 ⊢
    rw [complete_withChoice hp _ h2]
  unfold discoverParameters
  rw [not_complete hp hne]
  dsimp only
  rw [if_neg (by simpa using hne)]
  unfold generateAttempts
  rw [sureness_eq, e]
  dsimp only
  rw [attemptsOf_ok hatt]
  have := map_withChoice (p := p) (N := N) (ways_counted ns)
  have hw : withChoice p N ns = withChoice p N p.getMissings := funext (withChoice_perm hp')
  rw [hw] at this
  rw [this]
  rfl

/-! ### When the order is the one by sureness -/

theorem lastAndOne_order : ∀ ms ∈ sureness.sublists,
    (∃ k < 8, ∃ x ∈ ms, (∀ n ∈ ms, n ∈ sureness.drop k ∨ n = x) ∧ ∀ n ∈ sureness.drop k, n ∈ ms) →
    (fromBothEnds ms ms.length sureness).reverse = ms := by
  decide +kernel

theorem notLast_order : ∀ ms ∈ sureness.sublists, 2 ≤ ms.length → Name.timeMulticolumn ∉ ms →
    (fromBothEnds ms ms.length sureness).head? = ms.head? := by
  decide +kernel

theorem leftOutBySureness_perm {p : Params} (hd : ∀ n ∈ p.getMissings, Discoverable n) :
    (leftOutBySureness p).Perm p.getMissings := by
  refine (List.perm_ext_iff_of_nodup (List.Nodup.filter _ (by decide)) (missings_nodup p)).2 ?_
  intro n
  rw [List.mem_filter]
  constructor
  · rintro ⟨_, h⟩
    simpa using h
  · intro h
    exact ⟨by rw [← sureness_eq]; exact (discoverable_iff n).1 (hd n h), by simpa using h⟩

theorem leftOutBySureness_mem (p : Params) : leftOutBySureness p ∈ sureness.sublists :=
  List.mem_sublists.2 List.filter_sublist

theorem fromBothEnds_leftOut {p : Params} (hd : ∀ n ∈ p.getMissings, Discoverable n) :
    fromBothEnds p.getMissings p.getMissings.length sureness =
      fromBothEnds (leftOutBySureness p) (leftOutBySureness p).length sureness := by
  rw [fromBothEnds_filter, (leftOutBySureness_perm hd).length_eq]
  rfl

/-- C110. If only one parameter was left out, or the last ones of the list and at most one other, the attempts come
in the order of how sure the usual values are. -/
theorem C110_order_partial (p : Params) (N : Nat) (hp : GivenFor p N)
    (hd : ∀ n ∈ p.getMissings, Discoverable n) (k : Nat) (hk : k < 8) (x : Name) (hx : x ∈ p.getMissings)
    (hall : ∀ n ∈ p.getMissings, n ∈ sureness.drop k ∨ n = x)
    (hlast : ∀ n ∈ sureness.drop k, n ∈ p.getMissings) :
    discoverParameters p = .ok (.new
      ((countedChoices (leftOutBySureness p)).map (withChoice p N p.getMissings))) := by
  have hmem : ∀ n, n ∈ leftOutBySureness p ↔ n ∈ p.getMissings := fun n =>
    (leftOutBySureness_perm hd).mem_iff
  rw [C110_exact_partial p N hp (List.ne_nil_of_mem hx) hd, fromBothEnds_leftOut hd,
    lastAndOne_order _ (leftOutBySureness_mem p) ⟨k, hk, x, (hmem x).2 hx,
      fun n hn => hall n ((hmem n).1 hn), fun n hn => (hmem n).2 (hlast n hn)⟩]

/-! ### When it is not -/

theorem ways_head : ∀ (ns : List Name), (∀ n ∈ ns, Discoverable n) →
    (ways ns).head? = some (ns.map fun n => (n, usual n))
  | [], _ => rfl
  | n :: ns, h => by
    have ih := ways_head ns fun m hm => h m (by simp [hm])
    obtain ⟨rest, hr⟩ := tried_head (h n (by simp))
    unfold ways
    rw [hr, List.flatMap_cons]
    cases hw : ways ns with
    | nil => rw [hw] at ih; cases ih
    | cons c cs =>
      rw [hw] at ih
      simp only [List.head?_cons, Option.some.injEq] at ih
      subst ih
      rfl

theorem tried_two {n : Name} (h : Discoverable n) : ∃ rest, tried n = usual n :: secondBest n :: rest := by
  cases n <;> first | exact absurd rfl h | exact ⟨_, rfl⟩

theorem ways_second (ns : List Name) (n : Name) (h : ∀ m ∈ ns, Discoverable m) (hn : Discoverable n) :
    (ways (ns ++ [n]))[1]? = some ((ns.map fun m => (m, usual m)) ++ [(n, secondBest n)]) := by
  have hh := ways_head ns h
  obtain ⟨rest, hr⟩ := tried_two hn
  rw [ways_snoc]
  cases hw : ways ns with
  | nil => rw [hw] at hh; cases hh
  | cons c cs =>
    rw [hw] at hh
    simp only [List.head?_cons, Option.some.injEq] at hh
    subst hh
    rw [List.flatMap_cons, hr]
    rfl

theorem chosen_snoc {ns : List Name} {n m : Name} {v : PVal} (hn : n ∉ ns) (hm : m ∈ ns ++ [n]) :
    chosen ((ns.map fun m => (m, usual m)) ++ [(n, v)]) m = if m = n then v else usual m := by
  by_cases hmn : m = n
  · subst hmn
    rw [if_pos rfl]
    unfold chosen
    rw [List.find?_append, List.find?_eq_none.2]
    · simp
    · intro x hx
      obtain ⟨y, hy, rfl⟩ := List.mem_map.1 hx
      simp only [decide_eq_true_eq]
      rintro rfl
      exact hn hy
  · rw [if_neg hmn]
    have hm' : m ∈ ns := by
      rcases List.mem_append.1 hm with h | h
      · exact h
      · exact absurd (List.mem_singleton.1 h) hmn
    have := chosen_map (f := usual) hm'
    unfold chosen at this ⊢
    rw [List.find?_append]
    cases hf : (ns.map fun n => (n, usual n)).find? fun nv => decide (nv.1 = m) with
    | none =>
      have := List.find?_eq_none.1 hf (m, usual m) (List.mem_map.2 ⟨m, hm', rfl⟩)
      simp at this
    | some y =>
      rw [hf] at this
      exact this

/-- C110. If two or more parameters were left out and the last of the list was not (objects made from a dictionary
always have it), the first departure from the usual values is in the surest of them, not in the least sure. -/
theorem C110_surest_first_violated (p : Params) (N : Nat) (hp : GivenFor p N)
    (hd : ∀ n ∈ p.getMissings, Discoverable n) (h2 : 2 ≤ p.getMissings.length)
    (hm : Name.timeMulticolumn ∉ p.getMissings) :
    ∃ n qs, (leftOutBySureness p).head? = some n ∧ (leftOutBySureness p).getLast? ≠ some n ∧
      discoverParameters p = .ok (.new qs) ∧
      qs[1]? = some (withChoice p N p.getMissings fun m => if m = n then secondBest n else usual m) := by
  have hperm := leftOutBySureness_perm hd
  have hnd : (leftOutBySureness p).Nodup := hperm.nodup_iff.2 (missings_nodup p)
  have hlen : 2 ≤ (leftOutBySureness p).length := by rw [hperm.length_eq]; exact h2
  have hne : p.getMissings ≠ [] := by rintro h; rw [h] at h2; simp at h2
  have horder := notLast_order _ (leftOutBySureness_mem p) hlen (fun h => hm (hperm.mem_iff.1 h))
  obtain ⟨_, hbperm⟩ := combinations_order ((leftOutBySureness p).length - 1) (leftOutBySureness p)
    likelinessOrder (by omega) hnd (by decide) fun m hm =>
      ⟨(discoverable_iff m).1 (hd m (hperm.mem_iff.1 hm)), hd m (hperm.mem_iff.1 hm)⟩
  rw [show (leftOutBySureness p).length - 1 + 1 = (leftOutBySureness p).length by omega, sureness_eq] at hbperm
  have e := C110_exact_partial p N hp hne hd
  rw [fromBothEnds_leftOut hd] at e
  obtain ⟨bs, hbs⟩ : ∃ bs, fromBothEnds (leftOutBySureness p) (leftOutBySureness p).length sureness = bs :=
    ⟨_, rfl⟩
  rw [hbs] at e horder hbperm
  cases bs with
  | nil =>
    have := hbperm.length_eq
    simp at this
    omega
  | cons n rest =>
    have hndb := hbperm.nodup_iff.2 hnd
    have hnrest : n ∉ rest := (List.nodup_cons.1 hndb).1
    have hdisc : ∀ m ∈ n :: rest, Discoverable m := fun m hm =>
      hd m (hperm.mem_iff.1 (hbperm.mem_iff.1 hm))
    rw [List.head?_cons] at horder
    refine ⟨n, _, horder.symm, ?_, e, ?_⟩
    · cases hl : leftOutBySureness p with
      | nil => rw [hl] at hlen; simp at hlen
      | cons a l =>
        rw [hl] at hlen hnd horder
        simp only [List.head?_cons, Option.some.injEq] at horder
        subst horder
        intro hlast
        cases l with
        | nil => simp at hlen
        | cons b l =>
          rw [List.getLast?_cons_cons] at hlast
          exact (List.nodup_cons.1 hnd).1 (List.mem_of_getLast? hlast)
    · have hw := map_withChoice (p := p) (N := N) (ways_counted (n :: rest).reverse)
      have hpm : (n :: rest).reverse.Perm p.getMissings :=
        (List.reverse_perm _).trans (hbperm.trans hperm)
      have hwc : withChoice p N (n :: rest).reverse = withChoice p N p.getMissings :=
        funext (withChoice_perm hpm)
      rw [hwc] at hw
      rw [hw, List.getElem?_map, List.reverse_cons, ways_second _ _ (fun m hm => hdisc m (by
        simp only [List.mem_reverse] at hm
        simp [hm])) (hdisc n (by simp))]
      rw [Option.map_some]
      congr 1
      refine withChoice_congr ?_
      intro m hm
      refine chosen_snoc (by simpa using hnrest) ?_
      have := hpm.mem_iff.2 hm
      rwa [List.reverse_cons] at this

/-! ### Examples -/

namespace Sample

/-- Eight days from a Monday to the next one; on the Wednesday and the Thursday there are markers. -/
def daysSheet : Sheet := rows
  [[.str c!"fecha", .str c!"PBI", .str c!"IPC"],
   [day 2000 1 3, .int 1, .int 11],
   [day 2000 1 4, .int 2, .int 12],
   [day 2000 1 5, .str c!"...", .str c!"..."],
   [day 2000 1 6, .str c!"...", .str c!"..."],
   [day 2000 1 7, .int 5, .int 15],
   [day 2000 1 8, .int 6, .int 16],
   [day 2000 1 9, .int 7, .int 17],
   [day 2000 1 10, .int 8, .int 18]]

/-- Parameters for it. -/
def daysTable (continuous missing : Bool) : Params := fun n =>
  if n = .continuity then .list [.bool continuous, .bool continuous]
  else if n = .frequency then .list [.str c!"D", .str c!"D"]
  else gapTable missing n

/-- The same, without saying whether the series are continuous and whether values are missing. -/
def daysUnknown : Params := fun n =>
  if n = .continuity then .none else if n = .missings then .none else daysTable true false n

theorem daysUnknown_given : GivenFor daysUnknown 2 where
  num := by decide
  pos := by decide
  each := by
    intro n h1 h2
    cases n <;> first
      | exact absurd rfl h2
      | exact absurd (by decide) h1
      | exact .inl rfl
      | exact .inr ⟨_, rfl, rfl⟩
  timeHeaderC := ⟨_, rfl, by decide⟩

theorem daysUnknown_missings : daysUnknown.getMissings = [.continuity, .missings] := by decide +kernel

theorem daysUnknown_discoverable (n : Name) (h : n ∈ daysUnknown.getMissings) : Discoverable n := by
  rw [daysUnknown_missings] at h
  rcases List.mem_pair.1 h with rfl | rfl <;> simp [Discoverable, choices]

/-- The objects: what the user gives, and what is then tried. -/
def daysWorld : World :=
  ⟨fun _ => daysSheet, 1, fun r => if r = 0 then daysUnknown else if r = 1 then daysTable true false
    else if r = 2 then daysTable true true else if r = 3 then daysTable false false else daysTable false true, 5⟩

/-- The working days among the eight. -/
def daysBusiness : List Time :=
  [⟨2000, 1, 3, 0⟩, ⟨2000, 1, 4, 0⟩, ⟨2000, 1, 5, 0⟩, ⟨2000, 1, 6, 0⟩, ⟨2000, 1, 7, 0⟩, ⟨2000, 1, 10, 0⟩]

/-- The value of the first series at a date in the only data frame of an answer. -/
def firstAt (t : Time) : Except Err (Answer × Str × Nat) × World → Option Num
  | (.ok (.dfs (.one f), _, _), _) => (f.data[0]?.bind fun col => (f.index.idxOf? t).bind fun j => col[j]?)
  | _ => none

theorem days_wellFormed : WellFormed daysSheet := rows_wellFormed (by decide) (by decide) (by decide)

theorem days_order : (List.range' 1 4).map daysWorld.params =
    (countedChoices (leftOutBySureness daysUnknown)).map (withChoice daysUnknown 2 daysUnknown.getMissings) := by
  have h : leftOutBySureness daysUnknown = [.continuity, .missings] := by decide +kernel
  rw [h, daysUnknown_missings]
  show [daysTable true false, daysTable true true, daysTable false false, daysTable false true] = _
  simp only [countedChoices, likelyFirst, List.flatMap_cons, List.flatMap_nil, List.map_cons, List.map_nil,
    List.append_nil, List.cons_append, List.nil_append]
  refine congrArg₂ _ ?_ (congrArg₂ _ ?_ (congrArg₂ _ ?_ (congrArg₂ _ ?_ rfl))) <;>
    (funext n; cases n <;> rfl)

end Sample

/-- One parameter left out. -/
example : discoverParameters Sample.blankUnknown = .ok (.new
    ((countedChoices (leftOutBySureness Sample.blankUnknown)).map
      (withChoice Sample.blankUnknown 2 Sample.blankUnknown.getMissings))) := by
  have h : Sample.blankUnknown.getMissings = [.blankRows] := by decide +kernel
  refine C110_order_partial _ 2 Sample.blankUnknown_given ?_ 7 (by decide) .blankRows (by rw [h]; simp) ?_ ?_
  · intro n hn
    rw [h, List.mem_singleton] at hn
    subst hn
    simp [Discoverable, choices]
  · intro n hn
    rw [h, List.mem_singleton] at hn
    exact .inr hn
  · intro n hn
    exact absurd hn (by simp [sureness])

/-- Two parameters left out: the first departure is in the continuity, the surer one. -/
example : ∃ n qs, (leftOutBySureness Sample.daysUnknown).head? = some n ∧
    (leftOutBySureness Sample.daysUnknown).getLast? ≠ some n ∧
    discoverParameters Sample.daysUnknown = .ok (.new qs) ∧
    qs[1]? = some (withChoice Sample.daysUnknown 2 Sample.daysUnknown.getMissings
      fun m => if m = n then secondBest n else usual m) :=
  C110_surest_first_violated _ 2 Sample.daysUnknown_given Sample.daysUnknown_discoverable
    (by rw [Sample.daysUnknown_missings]; decide) (by rw [Sample.daysUnknown_missings]; decide)

/-- C110. The order makes the answer wrong: eight days with markers on two of them, and nothing said about
continuity and missing values. By sureness the first completion that gives an answer is the one that describes the
sheet (missing values), with the value 5 on Friday the 7th, where it stands in the sheet. The answer is the
one of a later completion (not continuous), with the value 5 on Wednesday the 5th. -/
theorem C110_answer_violated :
    ∃ (ext : Ext) (w : World), WellFormed (w.sheets 0) ∧ GivenFor (w.params 0) 2 ∧
      (∀ n ∈ (w.params 0).getMissings, Discoverable n) ∧
      (List.range' 1 4).map w.params =
        (countedChoices (leftOutBySureness (w.params 0))).map (withChoice (w.params 0) 2 (w.params 0).getMissings) ∧
      (getDataFrames ext [0] (.object 1) [] false true w).1.isOk = false ∧
      Sample.firstAt ⟨2000, 1, 7, 0⟩ (getDataFrames ext [0] (.object 2) [] false true w) = some (.fin 5) ∧
      Sample.firstAt ⟨2000, 1, 5, 0⟩ (getDataFrames ext [0] (.object 0) [] false true w) = some (.fin 5) ∧
      Sample.firstAt ⟨2000, 1, 7, 0⟩ (getDataFrames ext [0] (.object 0) [] false true w) = some (.fin 7) :=
  ⟨Sample.extDays fun _ _ => Sample.daysBusiness, Sample.daysWorld, Sample.days_wellFormed,
    Sample.daysUnknown_given, Sample.daysUnknown_discoverable, Sample.days_order,
    by decide +kernel, by decide +kernel, by decide +kernel, by decide +kernel⟩

end Xls
