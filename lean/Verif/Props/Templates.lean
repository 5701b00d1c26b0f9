/-
Templates of parameters: C102.
-/
import Verif.Lemmas.Templates
import Verif.Props.Describes
import Verif.Props.Call

set_option autoImplicit false

namespace Xls

open Spec

theorem reached_initial {σ : ClassLists} (h : Reached σ) : σ = .initial := by
  induction h with
  | start => rfl
  | used _ _ own changed ih => rw [keeps_to_own (own := []) (by simp) own changed, ih]

/-- C102. Templates changed by assignments, and by appending to lists assigned before, leave all later templates
and defaults as documented. -/
theorem C102_own_lists {σ : ClassLists} (h : Reached σ) :
    σ.markers = documentedMarkers ∧
    completeTemplate.dict σ = completeTemplate.dict .initial ∧
    criticalTemplate.dict σ = criticalTemplate.dict .initial ∧
    ∀ d, Params.newIn σ d = Params.new (.dict d) := by
  have hσ := reached_initial h
  subst hσ
  exact ⟨rfl, rfl, rfl, newIn_initial⟩

theorem filled_series {σ σ' : ClassLists} (hm : ∀ x rest, σ.markers = x :: rest → ¬ IsListValue x)
    {es : List Edit} {tmp : Template} {ps : List Pos} {t : Pos} {k : Int} {f : Str} (hes : FillsIn es)
    (happ : applyEdits σ completeTemplate es = .ok (σ', tmp)) (hsay : CriticalSay (tmp.dict σ') ps t k f) :
    ∃ p, Params.newIn σ' (tmp.dict σ') = .ok p ∧ HasSeries p (ps.map (usualSeries σ.markers t k f)) := by
  obtain ⟨rfl, h1, h2, h3⟩ := fills_in hes happ
  have hd : DistinctKeys (completeTemplate.dict σ') := by
    show (completeTemplate.dict ⟨σ'.headers, σ'.markers⟩ |>.map (·.1)).Nodup
    show (completeTemplate.map fun kv => (kv.1, kv.2.value σ')).map (·.1) |>.Nodup
    rw [List.map_map]
    show (completeTemplate.map (·.1)).Nodup
    decide
  have hk : ∀ kv ∈ completeTemplate.dict σ', ∃ m, kv.1 = .known m := by
    intro kv hkv
    obtain ⟨⟨key, s⟩, hmem, rfl⟩ := List.mem_map.1 hkv
    simp only [completeTemplate, criticalTemplate, List.cons_append, List.nil_append, List.mem_cons,
      List.not_mem_nil, or_false, Prod.mk.injEq] at hmem
    rcases hmem with h | h | h | h | h | h | h | h | h | h | h | h | h | h | h | h <;> exact ⟨_, h.1⟩
  have hD := filled_describes hm (h2 hd) (h3 hk) hsay h1
  obtain ⟨p, hp, hser⟩ := C74_described _ _ _ _ hD
  refine ⟨p, ?_, hser⟩
  rw [newIn_given, hp]
  · unfold PDict.absent
    rw [h1 _ (by decide)]
    rfl
  · unfold PDict.absent
    rw [h1 _ (by decide)]
    rfl

/-- C102. A complete template whose critical parameters are filled in describes one usual series per header, and
nothing is left to be discovered. Missing: users that append to the lists they find in a template; see
`C102_templates_violated`. -/
theorem C102_filled_partial {σ σ' : ClassLists} (hσ : Reached σ) {es : List Edit} {tmp : Template}
    {ps : List Pos} {t : Pos} {k : Int} {f : Str} (hes : FillsIn es)
    (happ : applyEdits σ completeTemplate es = .ok (σ', tmp)) (hsay : CriticalSay (tmp.dict σ') ps t k f) :
    ∃ p, Params.newIn σ' (tmp.dict σ') = .ok p ∧
      HasSeries p (ps.map (usualSeries documentedMarkers t k f)) ∧ p.isComplete = .ok true := by
  obtain ⟨hmk, -⟩ := C102_own_lists hσ
  obtain ⟨p, hp, hs⟩ := filled_series (by
    rw [hmk]
    intro x rest h
    injection h with h _
    subst h
    rintro ⟨_, h⟩
    cases h) hes happ hsay
  rw [hmk] at hs
  exact ⟨p, hp, hs, complete_series hs (by simpa using hsay.nonempty)⟩

/-- C102. A critical template that is filled in is accepted: one series per header, at the place and with the
frequency said. Its other parameters are left to the strategies. -/
theorem C102_critical_partial {σ σ' : ClassLists} (hσ : Reached σ) {es : List Edit} {tmp : Template}
    {ps : List Pos} {t : Pos} {k : Int} {f : Str} (hes : FillsIn es)
    (happ : applyEdits σ criticalTemplate es = .ok (σ', tmp)) (hsay : CriticalSay (tmp.dict σ') ps t k f)
    (hbeside : 2 ≤ ps.length → SpreadColumn ps → ∀ p ∈ ps, (p.2 : Int) < k) :
    ∃ p, Params.newIn σ' (tmp.dict σ') = .ok p ∧ p.num = some ps.length ∧
      p .headersCoord = .list (names ps) ∧
      p .dataStarts = .list (List.replicate ps.length (.int k)) ∧
      p .frequency = .list (List.replicate ps.length (.str f)) := by
  obtain ⟨rfl, h1, h2, h3⟩ := fills_in hes happ
  obtain ⟨-, -, -, hnew⟩ := C102_own_lists hσ
  have hd : DistinctKeys (criticalTemplate.dict σ') := by
    show ((criticalTemplate.map fun kv => (kv.1, kv.2.value σ')).map (·.1)).Nodup
    rw [List.map_map]
    show (criticalTemplate.map (·.1)).Nodup
    decide
  have hk : ∀ kv ∈ criticalTemplate.dict σ', ∃ m, kv.1 = .known m := by
    intro kv hkv
    obtain ⟨⟨key, s⟩, hmem, rfl⟩ := List.mem_map.1 hkv
    simp only [criticalTemplate, List.mem_cons, List.not_mem_nil, or_false, Prod.mk.injEq] at hmem
    rcases hmem with h | h | h | h <;> exact ⟨_, h.1⟩
  have hnone : ∀ n, n ∉ critical → (criticalTemplate.dict σ').get? n = none := by
    intro n hn
    cases n <;> first | rfl | exact absurd (by decide) hn
  rw [hnew]
  refine C74_accepted _ ps t k f
    { distinct := h2 hd
      known := h3 hk
      headers := hsay.headers
      positive := hsay.positive
      nonempty := hsay.nonempty
      time := hsay.time
      starts := hsay.starts
      frequency := hsay.frequency
      others := ?_
      below := fun _ => hsay.below
      beside := ?_ }
  · intro n v hv hn
    rw [h1 n hn, hnone n hn] at hv
    cases hv
  · rintro (h | ⟨_, hl, hsp⟩) p hp
    · rw [h1 _ (by decide), hnone _ (by decide)] at h
      cases h
    · exact hbeside hl hsp p hp

/-- A marker appended to the list found in one complete template is a marker of every series described by a
complete template taken later. -/
theorem C102_appended_marker {σ' : ClassLists} {es : List Edit} {tmp : Template} (v : PVal)
    {ps : List Pos} {t : Pos} {k : Int} {f : Str} (hes : FillsIn es) :
    ∃ σ one, applyEdits .initial completeTemplate [.append (.known .missingValue) v] = .ok (σ, one) ∧
      (applyEdits σ completeTemplate es = .ok (σ', tmp) → CriticalSay (tmp.dict σ') ps t k f →
        ∃ p, Params.newIn σ' (tmp.dict σ') = .ok p ∧
          HasSeries p (ps.map (usualSeries (documentedMarkers ++ [v]) t k f))) := by
  refine ⟨_, _, rfl, fun happ hsay => ?_⟩
  refine filled_series (σ := ⟨_, documentedMarkers ++ [v]⟩) ?_ hes happ hsay
  intro x rest h
  injection h with h _
  subst h
  rintro ⟨_, h⟩
  cases h

namespace Sample

/-- The user's headers, time header, start and frequency. -/
def filling : List Edit :=
  [.assign (.known .headersCoord) (.list [.str c!"B1:C1", .str c!"e1"]),
   .assign (.known .dataStarts) (.int 5), .assign (.known .frequency) (.str c!"y")]

theorem filling_fills : FillsIn filling := by
  intro e he
  simp only [filling, List.mem_cons, List.not_mem_nil, or_false] at he
  rcases he with rfl | rfl | rfl
  · exact ⟨.headersCoord, _, by decide, rfl⟩
  · exact ⟨.dataStarts, _, by decide, rfl⟩
  · exact ⟨.frequency, _, by decide, rfl⟩

theorem filling_says (σ : ClassLists) : ∃ tmp, applyEdits σ completeTemplate filling = .ok (σ, tmp) ∧
    CriticalSay (tmp.dict σ) [(1, 2), (1, 3), (1, 5)] (1, 1) 5 c!"A" := by
  refine ⟨_, rfl, ?_⟩
  refine ⟨⟨_, rfl, .inr ⟨[c!"B1:C1", c!"e1"], [[(1, 2), (1, 3)], [(1, 5)]], rfl, by simp,
      .cons (.inr ⟨(1, 2), (1, 3), ':', .inr rfl, by unfold Positive; decide, rfl,
        isRectangle_rectPositions (1, 2) (1, 3)⟩) (.cons (.inl ⟨(1, 5), by decide, by decide, by decide, rfl⟩) .nil),
      rfl⟩⟩,
    by simp, by unfold Positive; decide, ⟨_, rfl, .inl ⟨(1, 1), by decide, by decide, by decide, rfl⟩⟩,
    by unfold Positive; decide, rfl, by decide, ⟨_, rfl, .inl ⟨by decide, rfl⟩, by unfold FreqCode; decide⟩⟩

end Sample

/-- Three yearly series, after another user has filled in a template with markers of their own and one more. -/
example : ∃ p, Params.newIn .initial ((Template.dict .initial) (Classical.choose (Sample.filling_says .initial))) = .ok p ∧
    HasSeries p ([(1, 2), (1, 3), (1, 5)].map (usualSeries documentedMarkers (1, 1) 5 c!"A")) := by
  have h := Classical.choose_spec (Sample.filling_says .initial)
  obtain ⟨p, h1, h2, -⟩ := C102_filled_partial .start Sample.filling_fills h.1 h.2
  exact ⟨p, h1, h2⟩

example : ∃ σ t, applyEdits .initial completeTemplate [.assign (.known .missingValue) (.list [.str c!"-"]),
    .append (.known .missingValue) (.str c!"n/a")] = .ok (σ, t) ∧ Reached σ ∧
    (t.dict σ).get? .missingValue = some (.list [.str c!"-", .str c!"n/a"]) := by
  refine ⟨_, _, rfl, .used .start (.inr rfl) (es := [.assign (.known .missingValue) (.list [.str c!"-"]),
    .append (.known .missingValue) (.str c!"n/a")]) ⟨by decide, trivial⟩ rfl, rfl⟩

/-- C102. The template as it is taken describes five monthly series below `B1`, `C1`, `E1`, `F1` and `G1`, with
their dates below `A1` and their data from row 2 on. -/
theorem C102_as_taken {σ : ClassLists} (hσ : Reached σ) : ∃ p, Params.newIn σ (completeTemplate.dict σ) = .ok p ∧
    HasSeries p ([(1, 2), (1, 3), (1, 5), (1, 6), (1, 7)].map (usualSeries documentedMarkers (1, 1) 2 c!"M")) := by
  have he : σ = .initial := reached_initial hσ
  subst he
  obtain ⟨p, h1, h2, -⟩ := C102_filled_partial (es := []) .start (by intro e he; cases he) rfl
    (ps := [(1, 2), (1, 3), (1, 5), (1, 6), (1, 7)]) (t := (1, 1)) (k := 2) (f := c!"M")
    ⟨⟨_, rfl, .inr ⟨[c!"B1", c!"C1", c!"E1-G1"], [[(1, 2)], [(1, 3)], [(1, 5), (1, 6), (1, 7)]], rfl, by simp,
      .cons (.inl ⟨(1, 2), by decide, by decide, by decide, rfl⟩)
      (.cons (.inl ⟨(1, 3), by decide, by decide, by decide, rfl⟩)
      (.cons (.inr ⟨(1, 5), (1, 7), '-', .inl rfl, by unfold Positive; decide, rfl,
        isRectangle_rectPositions (1, 5) (1, 7)⟩) .nil)), rfl⟩⟩,
    by simp, by unfold Positive; decide, ⟨_, rfl, .inl ⟨(1, 1), by decide, by decide, by decide, rfl⟩⟩,
    by unfold Positive; decide, rfl, by decide,
    ⟨_, rfl, .inr (.inr (.inr (by decide))), by unfold FreqCode; decide⟩⟩
  exact ⟨p, h1, h2⟩

/-- C102 does not hold if users may append to the lists they find: a template is not independent of those taken
before. -/
theorem C102_templates_violated :
    ¬ ∀ (es es' : List Edit) (σ σ' : ClassLists) (one tmp : Template) (ps : List Pos) (t : Pos) (k : Int) (f : Str),
      applyEdits .initial completeTemplate es = .ok (σ, one) → FillsIn es' →
      applyEdits σ completeTemplate es' = .ok (σ', tmp) → CriticalSay (tmp.dict σ') ps t k f →
      ∃ p, Params.newIn σ' (tmp.dict σ') = .ok p ∧ HasSeries p (ps.map (usualSeries documentedMarkers t k f)) := by
  intro h
  obtain ⟨σ, one, happ, -⟩ := C102_appended_marker (σ' := .initial) (tmp := []) (ps := []) (t := (1, 1)) (k := 0)
    (f := []) (.str c!"n/a") (es := []) (by intro e he; cases he)
  obtain ⟨tmp, h1, h2⟩ := Sample.filling_says σ
  obtain ⟨p, hp, hs⟩ := h _ _ _ _ _ _ _ _ _ _ happ Sample.filling_fills h1 h2
  obtain ⟨σ2, one2, happ2, hx⟩ := C102_appended_marker (σ' := σ) (tmp := tmp) (ps := [(1, 2), (1, 3), (1, 5)])
    (t := (1, 1)) (k := 5) (f := c!"A") (.str c!"n/a") Sample.filling_fills
  rw [happ] at happ2
  injection happ2 with e
  injection e with e1 e2
  subst e1
  obtain ⟨p', hp', hs'⟩ := hx h1 h2
  rw [hp] at hp'
  injection hp' with hpp
  subst hpp
  have := (hs .missingValue).symm.trans (hs' .missingValue)
  simp [rawValue, usualSeries, documentedMarkers] at this

end Xls
