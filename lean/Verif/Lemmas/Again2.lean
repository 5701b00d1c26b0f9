/-
Cleaning and extracting again with the ends that were found.
-/
import Verif.Lemmas.Again
import Verif.Lemmas.Result
import Verif.Spec.Again

set_option autoImplicit false

namespace Xls

open Spec

theorem endingAt_hasEnd {e : Int} (h0 : e ≠ 0) (sp : SParams) : hasEnd (endingAt e sp) = true := by
  unfold hasEnd
  rw [endingAt_ends]
  cases hd : sp.dataEnds with
  | none => simpa using h0
  | some x =>
    dsimp only
    split
    · simpa using h0
    next h => simpa using h

theorem endingAt_of_hasEnd {sp : SParams} (h : hasEnd sp = true) (e : Int) : endingAt e sp = sp := by
  unfold endingAt hasEnd at *
  cases hd : sp.dataEnds with
  | none => rw [hd] at h; cases h
  | some x =>
    rw [hd] at h
    dsimp only at h ⊢
    rw [if_neg (by simpa using h)]

theorem endingAt_of_not {sp : SParams} (h : hasEnd sp = false) (e : Int) :
    endingAt e sp = { sp with dataEnds := some e } := by
  unfold endingAt hasEnd at *
  cases hd : sp.dataEnds with
  | none => rfl
  | some x =>
    rw [hd] at h
    dsimp only at h ⊢
    rw [if_pos (by simpa using h)]

theorem truthy_end (sp : SParams) : (rawValue sp .dataEnds).truthy = hasEnd sp := by
  show PVal.truthy (sp.dataEnds.elim .none .int) = _
  unfold hasEnd
  cases sp.dataEnds with
  | none => unfold PVal.truthy; rfl
  | some e => unfold PVal.truthy; rfl

theorem header_inv {p : Params} {sps : List SParams} (h : HasSeries p sps) {i : Nat} {sp : SParams}
    (hi : sps[i]? = some sp) {th : Str} (hth : (Params.index (p .timeHeaderCoord) i).bind PVal.asStr = .ok th) :
    sp.timeHeader = .single th := by
  rw [index_of_series h .timeHeaderCoord hi] at hth
  change PVal.asStr (match sp.timeHeader with
    | .single c => .str c
    | .multi cs => .list (cs.map .str)) = _ at hth
  cases hs : sp.timeHeader with
  | single c => rw [hs] at hth; cases hth; rfl
  | multi cs => rw [hs] at hth; cases hth

/-- Only the time indexes that were not cleaned before are cleaned. -/
theorem cleanSeries_keeps_new {ext : Ext} {V : Sheet → Prop} {th : Str} : ∀ (rest pre : List SParams) {p : Params}
    {s : Sheet} {ends : List (Str × Int)},
    (∀ sp ∈ rest, sp.timeHeader ≠ .single th → ∀ s, V s → V (cleanTimeIndex ext sp s).2) →
    HasSeries p (pre ++ rest) → endOf ends th ≠ none → V s →
    V (cleanSeries ext (List.range' pre.length rest.length) p s ends).2.2
  | [], pre, p, s, ends, _, _, _, hs => hs
  | sp :: rest, pre, p, s, ends, hV, hp, hend, hs => by
    rw [List.length_cons, List.range'_succ]
    unfold cleanSeries
    have hi : (pre ++ sp :: rest)[pre.length]? = some sp := by simp
    split
    · exact hs
    next header hh =>
      have hh := header_inv hp hi hh
      have hv : V (cleanOnce ext p s ends pre.length header).2 ∧ ∀ stop ends' s1,
          cleanOnce ext p s ends pre.length header = (.ok (stop, ends'), s1) → endOf ends' th ≠ none := by
        unfold cleanOnce
        split
        · exact ⟨hs, fun stop ends' s1 h => by cases h; exact hend⟩
        next hnone =>
          have hne : sp.timeHeader ≠ .single th := by
            rw [hh]
            intro e
            cases e
            exact hend hnone
          rw [typed_of_series hp hi]
          dsimp only
          have hv := hV sp (by simp) hne s hs
          split
          next h => rw [h] at hv; exact ⟨hv, fun _ _ _ h => by cases h⟩
          next h =>
            rw [h] at hv
            split
            · exact ⟨hv, fun _ _ _ h => by cases h⟩
            · refine ⟨hv, fun _ _ _ h => ?_⟩
              cases h
              intro e
              apply hend
              unfold endOf at e ⊢
              rw [Option.map_eq_none_iff, List.find?_eq_none] at e ⊢
              exact fun x hx => e x (List.mem_append_left _ hx)
      split
      next h => rw [h] at hv; exact hv.1
      next stop ends' s1 h =>
        rw [h] at hv
        rw [index_of_series hp .dataEnds hi]
        dsimp only
        have h3 := setEnd_series stop hp
        have := cleanSeries_keeps_new rest (pre ++ [endingAt stop sp])
          (p := if (rawValue sp .dataEnds).truthy then p else setEnd p pre.length stop) (ends := ends') (s := s1)
          (fun x hx => hV x (by simp [hx])) (by rw [List.append_assoc]; exact h3) (hv.2 _ _ _ rfl) hv.1
        rw [List.length_append, List.length_singleton] at this
        exact this

/-- Cleaning keeps the dates of other series. -/
theorem cleanTimeIndex_apart {ext : Ext} {sp sp' : SParams} {s : Sheet} {hr hc : Int}
    (hsep : ∀ hr' hc', HeaderAt sp' hr' hc' → (sp.alignment = .vertical ∧ sp'.alignment = .vertical ∧ hc ≠ hc') ∨
      (sp.alignment ≠ .vertical ∧ sp'.alignment ≠ .vertical ∧ hr ≠ hr')) (pos : Int) :
    timeCell (cleanTimeIndex ext sp' s).2 sp.alignment hr hc pos = timeCell s sp.alignment hr hc pos := by
  unfold timeCell
  by_contra hne
  obtain ⟨hr', hc', pos', h1, _, _, h2⟩ := C11_only_time_column_touched _ _ hne
  unfold IsAt rowOf colOf at h2
  rcases hsep hr' hc' h1 with ⟨a, b, d⟩ | ⟨a, b, d⟩
  · rw [a, b] at h2
    simp at h2
    omega
  · simp only [a, b, if_false] at h2
    omega

/-- Cleaning once more, with the parameters that were filled in, does the same; or it raises because the last
date of a time index stands there twice. -/
theorem cleanSeries_again {ext : Ext} : ∀ (rest pre : List SParams) {p p' : Params} {s s' t : Sheet}
    {ends : List (Str × Int)}, HasSeries p (pre ++ rest) →
    (∀ sp ∈ rest, sp.timeMulticolumn = false ∧ sp.timeAlignment = 0) → (∀ kv ∈ ends, kv.2 ≠ 0) →
    cleanSeries ext (List.range' pre.length rest.length) p s ends = (.ok (), p', s') →
    NoCellEmptied s s' → t.cells = s.cells →
    ∃ rest', HasSeries p' (pre ++ rest') ∧ List.Forall₂ (EndFilled True) rest rest' ∧
      ∀ (pre2 : List SParams) (q : Params), pre2.length = pre.length → HasSeries q (pre2 ++ rest') →
        (∃ t', cleanSeries ext (List.range' pre.length rest.length) q t ends = (.ok (), q, t') ∧
          t'.cells = s'.cells) ∨
        ((∃ err q' t', cleanSeries ext (List.range' pre.length rest.length) q t ends = (.error err, q', t')) ∧
          ((∀ sp ∈ rest, isImplicitStr sp.missingValue = false) → ExtValid ext → SheetValid s →
            SeparateIndexes rest → ¬ ∀ sp ∈ rest', LastDateOnce sp s'))
  | [], pre, p, p', s, s', t, ends, hp, _, _, h, _, ht => by
    rw [List.length_nil, List.range'_zero] at h ⊢
    unfold cleanSeries at h
    cases h
    exact ⟨[], hp, .nil, fun pre2 q _ _ => .inl ⟨t, rfl, ht⟩⟩
  | sp :: rest, pre, p, p', s, s', t, ends, hp, hok, h0, h, hne, ht => by
    rw [List.length_cons, List.range'_succ] at h ⊢
    have hi : (pre ++ sp :: rest)[pre.length]? = some sp := by simp
    unfold cleanSeries at h
    split at h
    · cases h
    next header hh =>
    have hth := header_inv hp hi hh
    split at h
    · cases h
    next stop ends' s1 honce =>
    rw [index_of_series hp .dataEnds hi] at h
    dsimp only at h
    have h3 := setEnd_series stop hp
    have hpre : pre.length + 1 = (pre ++ [endingAt stop sp]).length := by simp
    have hsps : HasSeries (if (rawValue sp .dataEnds).truthy then p else setEnd p pre.length stop)
        ((pre ++ [endingAt stop sp]) ++ rest) := by rw [List.append_assoc]; exact h3
    have hrest : ∀ sp ∈ rest, sp.timeMulticolumn = false ∧ sp.timeAlignment = 0 := fun x hx => hok x (by simp [hx])
    rw [hpre] at h
    -- what becomes of empty cells
    have hkeep : ∀ r c, s1.cells r c = .none → s'.cells r c = .none := by
      intro r c hn
      have := cleanSeries_keeps_of (ext := ext) (V := fun t => t.cells r c = .none) rest
        (pre ++ [endingAt stop sp]) (ends := ends') (s := s1)
        (fun x hx y hy => cleanTimeIndex_none (hrest x hx).1 hy) hsps hn
      rw [h] at this
      exact this
    -- the rest of both runs
    have later : ∀ t1 : Sheet, t1.cells = s1.cells → (∀ kv ∈ ends', kv.2 ≠ 0) → NoCellEmptied s1 s' → stop ≠ 0 →
        (∀ q : Params, ∀ t2, t2 = cleanOnce ext q t ends pre.length header →
          (q.typed pre.length = .ok (endingAt stop sp) → t2 = (.ok (stop, ends'), t1))) →
        (ExtValid ext → SheetValid s → SheetValid s1) →
        ∃ rest', HasSeries p' (pre ++ rest') ∧ List.Forall₂ (EndFilled True) (sp :: rest) rest' ∧
        ∀ (pre2 : List SParams) (q : Params), pre2.length = pre.length → HasSeries q (pre2 ++ rest') →
        (∃ t', cleanSeries ext (pre.length :: List.range' (pre.length + 1) rest.length) q t ends = (.ok (), q, t') ∧
          t'.cells = s'.cells) ∨
        ((∃ err q' t', cleanSeries ext (pre.length :: List.range' (pre.length + 1) rest.length) q t ends =
            (.error err, q', t')) ∧
          ((∀ x ∈ sp :: rest, isImplicitStr x.missingValue = false) → ExtValid ext → SheetValid s →
            SeparateIndexes (sp :: rest) → ¬ ∀ x ∈ rest', LastDateOnce x s')) := by
      intro t1 ht1 h0' hne' hstop hrun hval
      obtain ⟨rest', r1, r2, r3⟩ := cleanSeries_again rest (pre ++ [endingAt stop sp]) hsps hrest h0' h hne' ht1
      rw [List.append_assoc] at r1
      refine ⟨endingAt stop sp :: rest', r1, .cons (endFilled_endingAt stop sp) r2, fun pre2 q hl hq => ?_⟩
      have hi2 : (pre2 ++ endingAt stop sp :: rest')[pre.length]? = some (endingAt stop sp) := by
        rw [← hl]; simp
      have hq' : HasSeries q ((pre2 ++ [endingAt stop sp]) ++ rest') := by rw [List.append_assoc]; exact hq
      have e1 : (Params.index (q .timeHeaderCoord) pre.length).bind PVal.asStr = .ok header :=
        header_of_series hq hi2 (by rw [endingAt_same]; exact hth)
      have e2 := hrun q _ rfl (typed_of_series hq hi2)
      have e3 := index_of_series hq .dataEnds hi2
      have e4 : cleanSeries ext (pre.length :: List.range' (pre.length + 1) rest.length) q t ends =
          cleanSeries ext (List.range' (pre.length + 1) rest.length) q t1 ends' := by
        conv => lhs; unfold cleanSeries
        rw [e1]
        dsimp only
        rw [e2]
        dsimp only
        rw [e3]
        dsimp only
        rw [truthy_end, endingAt_hasEnd hstop, if_pos rfl]
      rw [e4, hpre]
      rcases r3 (pre2 ++ [endingAt stop sp]) q (by simp [hl]) hq' with g | ⟨g1, g2⟩
      · exact .inl g
      · refine .inr ⟨g1, fun k1 k2 k3 k4 k5 => ?_⟩
        exact g2 (fun x hx => k1 x (by simp [hx])) k2 (hval k2 k3)
          (fun x hx y hy => k4 x (by simp [hx]) y (by simp [hy])) (fun x hx => k5 x (by simp [hx]))
    unfold cleanOnce at honce
    split at honce
    next stop' hend =>
      cases honce
      have hs0 : stop ≠ 0 := by
        unfold endOf at hend
        obtain ⟨kv, hk1, hk2⟩ := Option.map_eq_some_iff.1 hend
        rw [← hk2]
        exact h0 kv (List.mem_of_find?_eq_some hk1)
      refine later t ht h0 hne hs0 (fun q t2 h2 _ => ?_) (fun _ h => h)
      rw [h2]
      unfold cleanOnce
      rw [hend]
    next hend =>
      rw [typed_of_series hp hi] at honce
      dsimp only at honce
      split at honce
      · cases honce
      next stop' s1' hcl =>
        split at honce
        · cases honce
        next hs0 =>
          cases honce
          have hne1 : ∀ r c, s1.cells r c = .none → s.cells r c = .none := fun r c hn => hne r c (hkeep r c hn)
          have hne2 : NoCellEmptied s1 s' := fun r c hn => by
            have := cleanTimeIndex_none (ext := ext) (hok sp (by simp)).1 (hne r c hn)
            rw [hcl] at this
            exact this
          have h0' : ∀ kv ∈ ends ++ [(header, stop)], kv.2 ≠ 0 := by
            intro kv hkv
            rcases List.mem_append.1 hkv with hkv | hkv
            · exact h0 kv hkv
            · rw [List.mem_singleton] at hkv
              subst hkv
              exact hs0
          have hval : ExtValid ext → SheetValid s → SheetValid s1 := fun k1 k2 => by
            have := cleanTimeIndex_valid (sp := sp) k1 k2
            rw [hcl] at this
            exact this
          have done : ∀ t1, cleanTimeIndex ext (endingAt stop sp) t = (.ok stop, t1) → t1.cells = s1.cells → _ :=
            fun t1 e1 e2 => later t1 e2 h0' hne2 hs0 (fun q t2 h2 hq => by
              rw [h2]
              unfold cleanOnce
              rw [hend]
              dsimp only
              rw [hq]
              dsimp only
              rw [e1]
              dsimp only
              rw [if_neg hs0]) hval
          by_cases hd : hasEnd sp = true
          · obtain ⟨t1, e1, e2⟩ := cleanTimeIndex_cells hcl hd ht
            exact done t1 (by rw [endingAt_of_hasEnd hd]; exact e1) e2
          · have hd : hasEnd sp = false := by simpa using hd
            have hspe := endingAt_of_not hd stop
            rcases cleanTimeIndex_again (hok sp (by simp)).1 (hok sp (by simp)).2 hcl hne1 ht with
              ⟨t1, e1, e2⟩ | ⟨⟨err, t1, e1⟩, e2⟩
            · exact done t1 (by rw [hspe]; exact e1) e2
            · obtain ⟨rest', r1, r2, r3⟩ := cleanSeries_again (t := s1) rest (pre ++ [endingAt stop sp]) hsps hrest
                h0' h hne2 rfl
              rw [List.append_assoc] at r1
              refine ⟨endingAt stop sp :: rest', r1, .cons (endFilled_endingAt stop sp) r2, fun pre2 q hl hq => ?_⟩
              have hi2 : (pre2 ++ endingAt stop sp :: rest')[pre.length]? = some (endingAt stop sp) := by
                rw [← hl]; simp
              have g1 : (Params.index (q .timeHeaderCoord) pre.length).bind PVal.asStr = .ok header :=
                header_of_series hq hi2 (by rw [endingAt_same]; exact hth)
              have g2 : cleanOnce ext q t ends pre.length header = (.error err, t1) := by
                unfold cleanOnce
                rw [hend]
                dsimp only
                rw [typed_of_series hq hi2]
                dsimp only
                rw [hspe, e1]
              refine .inr ⟨⟨err, q, t1, ?_⟩, fun k1 k2 k3 k4 k5 => ?_⟩
              · conv => lhs; unfold cleanSeries
                rw [g1]
                dsimp only
                rw [g2]
              · obtain ⟨hr, hc, pos, x, a1, a2, a3, a4, a5⟩ := e2 (k1 sp (by simp)) k2 k3
                have hline : ∀ pos, timeCell s' sp.alignment hr hc pos = timeCell s1 sp.alignment hr hc pos := by
                  intro pos
                  have := cleanSeries_keeps_new (ext := ext) (th := header)
                    (V := fun t => timeCell t sp.alignment hr hc pos = timeCell s1 sp.alignment hr hc pos) rest
                    (pre ++ [endingAt stop sp]) (ends := ends ++ [(header, stop)]) (s := s1)
                    (fun y hy hne y' hy' => by
                      rw [cleanTimeIndex_apart (sp := sp) (fun hr' hc' hh' =>
                        k4 sp (by simp) y (by simp [hy]) (by rw [hth]; exact fun e => hne e.symm) hr hc hr' hc' a1 hh')]
                      exact hy') hsps (by
                      intro e
                      unfold endOf at e
                      rw [Option.map_eq_none_iff, List.find?_eq_none] at e
                      simpa using e (header, stop) (by simp)) rfl
                  rw [h] at this
                  exact this
                refine k5 (endingAt stop sp) (by simp) hr hc stop pos x ?_ ?_ ?_ a3 ?_ ?_
                · rw [hspe]; exact a1
                · rw [hspe]
                · rw [hspe]; exact a2
                · rw [hspe]; exact (hline pos).trans a4
                · rw [hspe]; exact (hline stop).trans a5

end Xls
