/-
C108 for calls that leave parameters out.
-/
import Verif.Props.Moved
import Verif.Props.Likely

set_option autoImplicit false

namespace Xls

open Spec

/-- Two sets of parameters in which the same ones are left out are completed in the same ways, in the same order. -/
theorem pairedAttempts_choices {S : Params → Params → Prop} {p p' : Params} {N : Nat} (hp : GivenFor p N)
    (hp' : GivenFor p' N) (hd : ∀ n, LeftOut p n → Discoverable n) (hsame : ∀ n, LeftOut p' n ↔ LeftOut p n)
    (h : ∀ q q', Completion p N q → Completion p' N q' → (∀ n, LeftOut p n → q' n = q n) → S q q') :
    PairedAttempts S p p' := by
  have hm : p'.getMissings = p.getMissings := by
    unfold Params.getMissings
    apply List.filter_congr
    intro n hn
    have h1 : p'.isMissing n = true ↔ p.isMissing n = true := by
      have e : ∀ p : Params, p.isMissing n = true ↔ n ∈ p.getMissings := fun p => by
        unfold Params.getMissings
        rw [List.mem_filter]
        exact ⟨fun k => ⟨hn, k⟩, fun k => k.2⟩
      rw [e, e, mem_getMissings, mem_getMissings]
      exact hsame n
    exact Bool.eq_iff_iff.2 h1
  by_cases hne : p.getMissings = []
  · have hc : ∀ p : Params, GivenFor p N → p.getMissings = [] → Completion p N p ∧ discoverParameters p = .ok .same := by
      intro p hp hne
      have hself : Completion p N p := by
        intro n
        refine ⟨fun hn => ?_, fun _ => rfl⟩
        have := mem_getMissings.2 hn
        rw [hne] at this
        cases this
      refine ⟨hself, ?_⟩
      unfold discoverParameters
      rw [completion_complete hp (fun n hn => by
        have := mem_getMissings.2 hn
        rw [hne] at this
        cases this) hself]
    obtain ⟨a1, a2⟩ := hc p hp hne
    obtain ⟨b1, b2⟩ := hc p' hp' (by rw [hm]; exact hne)
    unfold PairedAttempts
    rw [a2, b2]
    refine h p p' a1 b1 fun n hn => ?_
    have := mem_getMissings.2 hn
    rw [hne] at this
    cases this
  · have e := C110_exact_partial p N hp hne fun n hn => hd n (mem_getMissings.1 hn)
    have e' := C110_exact_partial p' N hp' (by rw [hm]; exact hne) fun n hn =>
      hd n ((hsame n).1 (mem_getMissings.1 hn))
    have ht : ∀ q, Tried p q → Completion p N q := fun q => tried_completion hp hd
    have ht' : ∀ q, Tried p' q → Completion p' N q := fun q =>
      tried_completion hp' fun n hn => hd n ((hsame n).1 hn)
    unfold Tried at ht ht'
    rw [e] at ht
    rw [e'] at ht'
    unfold PairedAttempts
    rw [e, e']
    rw [hm] at ht' ⊢
    dsimp only at ht ht' ⊢
    rw [List.forall₂_map_left_iff, List.forall₂_map_right_iff, List.forall₂_same]
    intro f hf
    refine h _ _ (ht _ (List.mem_map_of_mem hf)) (ht' _ (List.mem_map_of_mem hf)) fun n hn => ?_
    unfold withChoice
    rw [if_pos (mem_getMissings.2 hn), if_pos (mem_getMissings.2 hn)]

/-- C108 for calls that may leave parameters out, in safe mode or not: the table is on the worksheet named in one
call, and elsewhere on the worksheet named in the other; the same parameters are left out, and the others say where
it stands. The answer or exception is the same if the conditions of `C108_moved_partial` hold for all completions
that are tried. -/
theorem C108_left_out_partial (ext : Ext) (wb wb2 : List Nat) (w w2 : World) (given given2 : Given) (name name2 : Str)
    (safe preserve preserve2 : Bool) (r r2 : Nat) {dr dc : Int} {p p' : Params} (N : Nat)
    (hreq : Requested ext wb w name r) (hreq2 : Requested ext wb2 w2 name2 r2)
    (hwb : ∀ q ∈ wb, q < w.nextSheet ∧ WellFormed (w.sheets q))
    (hwb2 : ∀ q ∈ wb2, q < w2.nextSheet ∧ WellFormed (w2.sheets q)) (hgiven : GivenWith given w p)
    (hgiven2 : GivenWith given2 w2 p') (ht : (w2.sheets r2).title = (w.sheets r).title) (hp : GivenFor p N)
    (hp' : GivenFor p' N) (hd : ∀ n, LeftOut p n → Discoverable n) (hsame : ∀ n, LeftOut p' n ↔ LeftOut p n)
    (h : ∀ q q', Completion p N q → Completion p' N q' → (∀ n, LeftOut p n → q' n = q n) →
      ∃ al sps sps', HasSeries q sps ∧ HasSeries q' sps' ∧ List.Forall₂ (Moved al dr dc) sps sps' ∧
        (∀ sp ∈ sps, OnSheet sp) ∧ (∀ sp ∈ sps', OnSheet sp) ∧ Settled (w.sheets r).maxRow sps ∧
        Settled (w2.sheets r2).maxRow sps' ∧
        ∀ row col, InTable sps row col →
          (w2.sheets r2).cells (row + dr) (col + dc) = (w.sheets r).cells row col) :
    outcome (getDataFrames ext wb2 given2 name2 safe preserve2 w2) =
      outcome (getDataFrames ext wb given name safe preserve w) := by
  refine calls_pairs hreq hreq2 hwb hwb2 hgiven hgiven2 ht (pairedAttempts_choices hp hp' hd hsame ?_)
  intro q q' h1 h2 h3
  obtain ⟨al, sps, sps', k1, k2, k3, k4, k5, k6, k7, k8⟩ := h q q' h1 h2 h3
  exact (C108_moved_partial ext k1 k2 k3 k4 k5 (hwb r hreq.1).2 (hwb2 r2 hreq2.1).2 k6 k7 k8).1

/-! ### Example -/

namespace Sample

def twoUnknown : Params := fun n =>
  if n = .blankRows then .none else paramsOf [quarterSeries c!"B1", quarterSeries c!"C1"] n

def lowerUnknown : Params := fun n =>
  if n = .blankRows then .none else paramsOf [quartersLower c!"C3", quartersLower c!"D3"] n

theorem pairUnknown_given {p : Params} (h : p = twoUnknown ∨ p = lowerUnknown) :
    GivenFor p 2 ∧ ∀ n, LeftOut p n ↔ n = .blankRows := by
  rcases h with rfl | rfl
  all_goals
    refine ⟨⟨by decide, by decide, ?_, ⟨_, rfl, by decide⟩⟩, ?_⟩
    · intro n h1 h2
      cases n <;> first
        | exact absurd rfl h2
        | exact absurd (by decide) h1
        | exact .inl rfl
        | exact .inr ⟨_, rfl, rfl⟩
    · intro n
      constructor
      · rintro ⟨h, _⟩
        cases n <;> first | rfl | cases h
      · rintro rfl
        exact ⟨rfl, by decide⟩

end Sample

/-- The quarters and the quarters elsewhere, nothing said about blank rows. -/
example (safe : Bool) : outcome (getDataFrames Sample.ext0 [0] (.object 0) [] safe true
      (Sample.world Sample.quartersElsewhere Sample.lowerUnknown)) =
    outcome (getDataFrames Sample.ext0 [0] (.object 0) [] safe true
      (Sample.world Sample.quarterSheet Sample.twoUnknown)) := by
  obtain ⟨g1, l1⟩ := Sample.pairUnknown_given (.inl rfl)
  obtain ⟨g2, l2⟩ := Sample.pairUnknown_given (.inr rfl)
  refine C108_left_out_partial Sample.ext0 [0] [0] _ _ (.object 0) (.object 0) [] [] safe true true 0 0 (dr := 2)
    (dc := 1) (p := Sample.twoUnknown) (p' := Sample.lowerUnknown) 2 ⟨by simp, by simp, .inl ⟨rfl, rfl⟩⟩
    ⟨by simp, by simp, .inl ⟨rfl, rfl⟩⟩ ?_ ?_ (.inl ⟨0, rfl, rfl⟩) (.inl ⟨0, rfl, rfl⟩) rfl g1 g2 ?_
    (fun n => by rw [l1, l2]) ?_
  · intro q hq
    rw [List.mem_singleton] at hq
    subst hq
    exact ⟨Nat.one_pos, Sample.rows_wellFormed (by decide) (by decide) (by decide)⟩
  · intro q hq
    rw [List.mem_singleton] at hq
    subst hq
    exact ⟨Nat.one_pos, Sample.rows_wellFormed (by decide) (by decide) (by decide)⟩
  · intro n hn
    rw [l1] at hn
    subst hn
    simp [Discoverable, choices]
  · intro q q' h1 h2 h3
    obtain ⟨v, hv, hq⟩ := (h1 .blankRows).1 ((l1 _).2 rfl)
    have hq' := h3 .blankRows ((l1 _).2 rfl)
    obtain ⟨b, rfl⟩ : ∃ b, v = .bool b := by
      simp only [choices, List.mem_cons, List.not_mem_nil, or_false] at hv
      rcases hv with rfl | rfl
      exacts [⟨true, rfl⟩, ⟨false, rfl⟩]
    have hm : List.Forall₂ (Moved .vertical 2 1)
        [{ Sample.quarterSeries c!"B1" with blankRows := b }, { Sample.quarterSeries c!"C1" with blankRows := b }]
        [{ Sample.quartersLower c!"C3" with blankRows := b }, { Sample.quartersLower c!"D3" with blankRows := b }] := by
      cases Sample.quarters_moved with
      | cons m1 t =>
        cases t with
        | cons m2 _ =>
          exact .cons ⟨rfl, m1.header, m1.composed, m1.timeHeader, rfl, rfl, rfl⟩
            (.cons ⟨rfl, m2.header, m2.composed, m2.timeHeader, rfl, rfl, rfl⟩ .nil)
    refine ⟨.vertical, _, _, ?_, ?_, hm, ?_, ?_, ⟨?_, .inl ?_⟩, ⟨?_, .inl ?_⟩, ?_⟩
    · intro n
      by_cases hn : n = .blankRows
      · subst hn
        exact hq
      · rw [(h1 n).2 fun hl => hn ((l1 n).1 hl)]
        unfold Sample.twoUnknown
        rw [if_neg hn]
        cases n <;> first | rfl | exact absurd rfl hn
    · intro n
      by_cases hn : n = .blankRows
      · subst hn
        rw [hq', hq]
        rfl
      · rw [(h2 n).2 fun hl => hn ((l2 n).1 hl)]
        unfold Sample.lowerUnknown
        rw [if_neg hn]
        cases n <;> first | rfl | exact absurd rfl hn
    · intro sp hsp
      simp only [List.mem_cons, List.not_mem_nil, or_false] at hsp
      rcases hsp with rfl | rfl <;>
        exact ⟨show 1 ≤ (Sample.quarterSeries c!"B1").dataStarts by decide,
          show 1 ≤ (Sample.quarterSeries c!"B1").dataStarts + (Sample.quarterSeries c!"B1").timeAlignment by decide,
          fun e he => by cases he⟩
    · intro sp hsp
      simp only [List.mem_cons, List.not_mem_nil, or_false] at hsp
      rcases hsp with rfl | rfl <;>
        exact ⟨show 1 ≤ (Sample.quartersLower c!"B1").dataStarts by decide,
          show 1 ≤ (Sample.quartersLower c!"B1").dataStarts + (Sample.quartersLower c!"B1").timeAlignment by decide,
          fun e he => by cases he⟩
    · intro sp hsp
      simp only [List.mem_cons, List.not_mem_nil, or_false] at hsp
      rcases hsp with rfl | rfl <;>
        exact .inl ⟨rfl, show (Sample.quarterSeries c!"B1").dataStarts ≤ Sample.quarterSheet.maxRow by decide⟩
    · intro sp hsp
      simp only [List.mem_cons, List.not_mem_nil, or_false] at hsp
      rcases hsp with rfl | rfl <;> rfl
    · intro sp hsp
      simp only [List.mem_cons, List.not_mem_nil, or_false] at hsp
      rcases hsp with rfl | rfl <;>
        exact .inl ⟨rfl, show (Sample.quartersLower c!"B1").dataStarts ≤ Sample.quartersElsewhere.maxRow by decide⟩
    · intro sp hsp
      simp only [List.mem_cons, List.not_mem_nil, or_false] at hsp
      rcases hsp with rfl | rfl <;> rfl
    · intro row col hin
      refine Sample.quarters_cells row col ?_
      obtain ⟨sp, hsp, k⟩ := hin
      have hreach : ∀ sq, sq.dataEnds = none → ∀ sps : List SParams, ∀ pos, InReach sps sq pos ↔
          min sq.dataStarts (sq.dataStarts + sq.timeAlignment) ≤ pos := by
        intro sq hn sps pos
        exact ⟨fun k => k.1, fun k => ⟨k, fun _ _ e he => by rw [hn] at he; cases he⟩⟩
      simp only [List.mem_cons, List.not_mem_nil, or_false] at hsp
      rcases hsp with rfl | rfl
      · refine ⟨Sample.quarterSeries c!"B1", by simp, ?_⟩
        rcases k with k | ⟨a, ha, hr, hc, pos, e, hpos, hrc⟩
        · exact .inl k
        · exact .inr ⟨a, ha, hr, hc, pos, e, (hreach _ rfl _ _).2 ((hreach _ rfl _ _).1 hpos), hrc⟩
      · refine ⟨Sample.quarterSeries c!"C1", by simp, ?_⟩
        rcases k with k | ⟨a, ha, hr, hc, pos, e, hpos, hrc⟩
        · exact .inl k
        · exact .inr ⟨a, ha, hr, hc, pos, e, (hreach _ rfl _ _).2 ((hreach _ rfl _ _).1 hpos), hrc⟩

end Xls
