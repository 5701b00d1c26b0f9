/-
Lemmas about the order of the attempts.
-/
import Verif.Lemmas.Attempts
import Verif.Spec.Likely

set_option autoImplicit false

namespace Xls

open Spec

theorem likelyFirst_eq (n : Name) : likelyFirst n = tried n := by
  cases n <;> rfl

theorem sureness_eq : likelinessOrder = sureness := rfl

/-- All combinations, the last name changing first. -/
def ways : List Name → List (List (Name × PVal))
  | [] => [[]]
  | n :: ns => (tried n).flatMap fun v => (ways ns).map fun c => (n, v) :: c

theorem ways_snoc (n : Name) : ∀ ns : List Name,
    ways (ns ++ [n]) = (ways ns).flatMap fun c => (tried n).map fun v => c ++ [(n, v)]
  | [] => by
    show (tried n).flatMap (fun v => [[(n, v)]]) = _
    rw [← List.map_eq_flatMap]
    simp [ways]
  | m :: ns => by
    show (tried m).flatMap (fun v => (ways (ns ++ [n])).map fun c => (m, v) :: c) = _
    rw [ways_snoc n ns]
    show _ = ((tried m).flatMap fun v => (ways ns).map fun c => (m, v) :: c).flatMap _
    rw [List.flatMap_assoc]
    congr 1
    funext v
    rw [List.map_flatMap, List.flatMap_map]
    congr 1
    funext c
    rw [List.map_map]
    rfl

theorem ways_names : ∀ (ns : List Name), ∀ c ∈ ways ns, c.map Prod.fst = ns ∧ ∀ nv ∈ c, nv.2 ∈ tried nv.1
  | [], c, h => by
    rw [List.mem_singleton.1 h]
    exact ⟨rfl, by simp⟩
  | n :: ns, c, h => by
    obtain ⟨v, hv, h⟩ := List.mem_flatMap.1 h
    obtain ⟨c', hc', rfl⟩ := List.mem_map.1 h
    obtain ⟨h1, h2⟩ := ways_names ns c' hc'
    refine ⟨by rw [List.map_cons, h1], ?_⟩
    intro nv hnv
    rcases List.mem_cons.1 hnv with rfl | hnv
    · exact hv
    · exact h2 nv hnv

theorem ways_counted : ∀ (ns : List Name),
    List.Forall₂ (fun f c => ∀ m ∈ ns, f m = chosen c m) (countedChoices ns) (ways ns)
  | [] => .cons (by simp) .nil
  | n :: ns => by
    have ih := ways_counted ns
    show List.Forall₂ _ ((likelyFirst n).flatMap _) ((tried n).flatMap _)
    rw [likelyFirst_eq]
    generalize tried n = vs
    induction vs with
    | nil => exact .nil
    | cons v vs ihv =>
      rw [List.flatMap_cons, List.flatMap_cons]
      refine List.rel_append ?_ ihv
      rw [List.forall₂_map_left_iff, List.forall₂_map_right_iff]
      refine ih.imp ?_
      intro f c hfc m hm
      by_cases hmn : m = n
      · subst hmn
        simp [chosen]
      · show (if m = n then v else f m) = _
        rw [if_neg hmn]
        unfold chosen
        rw [List.find?_cons_of_neg (by simpa using fun h => hmn h.symm)]
        refine hfc m ?_
        rcases List.mem_cons.1 hm with h | h
        · exact absurd h hmn
        · exact h

theorem map_withChoice {p : Params} {N : Nat} {ns : List Name} {fs : List (Name → PVal)}
    {cs : List (List (Name × PVal))} (h : List.Forall₂ (fun f c => ∀ m ∈ ns, f m = chosen c m) fs cs) :
    fs.map (withChoice p N ns) = cs.map fun c => withChoice p N ns (chosen c) := by
  induction h with
  | nil => rfl
  | cons h _ ih =>
    rw [List.map_cons, List.map_cons, ih, withChoice_congr h]

theorem popFront_dropWhile {ms : List Name} : ∀ {order : List Name} {n : Name} {rest : List Name},
    popFront ms order = .ok (n, rest) → order.dropWhile (fun m => decide (m ∉ ms)) = n :: rest
  | [], _, _, h => by cases h
  | x :: xs, n, rest, h => by
    unfold popFront at h
    by_cases hx : x ∈ ms
    · rw [if_pos hx] at h
      cases h
      rw [List.dropWhile_cons_of_neg (by simpa using hx)]
    · rw [if_neg hx] at h
      rw [List.dropWhile_cons_of_pos (by simpa using hx)]
      exact popFront_dropWhile h

theorem fromBothEnds_step {ms order : List Name} {n : Name} {rest : List Name} (k : Nat) (hne : order ≠ [])
    (h : nextName ms order = .ok (n, rest)) : fromBothEnds ms (k + 1) order = n :: fromBothEnds ms k rest := by
  unfold nextName at h
  rw [fromBothEnds]
  rcases List.eq_nil_or_concat' order with h0 | ⟨l, x, rfl⟩
  · exact absurd h0 hne
  · rw [List.getLast?_concat, List.dropLast_concat] at h ⊢
    dsimp only at h ⊢
    by_cases hx : x ∈ ms
    · rw [if_pos hx] at h ⊢
      cases h
      rfl
    · rw [if_neg hx] at h ⊢
      rw [popFront_dropWhile h]

theorem fromBothEnds_congr {ms ms' : List Name} : ∀ (k : Nat) (order : List Name),
    (∀ n ∈ order, n ∈ ms ↔ n ∈ ms') → fromBothEnds ms k order = fromBothEnds ms' k order
  | 0, _, _ => rfl
  | k + 1, order, h => by
    unfold fromBothEnds
    rcases List.eq_nil_or_concat' order with rfl | ⟨l, x, rfl⟩
    · rfl
    · rw [List.getLast?_concat, List.dropLast_concat]
      dsimp only
      have hl : ∀ n ∈ l, n ∈ ms ↔ n ∈ ms' := fun n hn => h n (by simp [hn])
      have hdw : (l.dropWhile fun m => decide (m ∉ ms)) = l.dropWhile fun m => decide (m ∉ ms') := by
        clear h
        induction l with
        | nil => rfl
        | cons y l ih =>
          rw [List.dropWhile_cons, List.dropWhile_cons, ih fun n hn => hl n (by simp [hn])]
          simp only [hl y (by simp)]
      have hx := h x (by simp)
      by_cases hm : x ∈ ms
      · rw [if_pos hm, if_pos (hx.1 hm), fromBothEnds_congr k l hl]
      · rw [if_neg hm, if_neg (fun h => hm (hx.2 h)), hdw]
        split
        · rfl
        next m rest he =>
          rw [fromBothEnds_congr k rest]
          intro n hn
          refine hl n ?_
          have : n ∈ l.dropWhile fun m => decide (m ∉ ms') := by rw [he]; simp [hn]
          exact (List.dropWhile_sublist _).subset this

theorem fromBothEnds_filter (ms : List Name) (k : Nat) :
    fromBothEnds ms k sureness = fromBothEnds (sureness.filter fun n => n ∈ ms) k sureness := by
  refine fromBothEnds_congr k _ ?_
  intro n hn
  simp [hn]

/-- The combinations in their order. -/
theorem combinations_order : ∀ (k : Nat) (ms order : List Name), ms.length = k + 1 → ms.Nodup →
    order.Nodup → (∀ m ∈ ms, m ∈ order ∧ Discoverable m) →
    combinations k ms order = .ok (ways (fromBothEnds ms (k + 1) order).reverse) ∧
      (fromBothEnds ms (k + 1) order).Perm ms
  | 0, ms, order, hlen, _, hond, hd => by
    obtain ⟨n, rfl⟩ := List.length_eq_one_iff.1 hlen
    have hn := hd n (by simp)
    obtain ⟨x, rest, h1, h2, h3, h4⟩ := nextName_ok hond (by simp) (fun m hm => (hd m hm).1)
    rw [List.mem_singleton] at h2
    subst h2
    rw [fromBothEnds_step 0 (by rintro rfl; cases hn.1) h1]
    refine ⟨?_, List.Perm.refl _⟩
    unfold combinations
    dsimp only
    rw [valuesToTry_ok hn.2]
    dsimp only [Bind.bind, Except.bind]
    rw [defaultFirst_ok hn.2]
    show Except.ok _ = Except.ok _
    congr 1
    simp [fromBothEnds, ways, List.map_eq_flatMap]
  | k + 1, ms, order, hlen, hnd, hond, hd => by
    have hne : ms ≠ [] := by rintro rfl; cases hlen
    obtain ⟨n, rest, h1, h2, h3, h4⟩ := nextName_ok hond hne (fun m hm => (hd m hm).1)
    have hn := (hd n h2).2
    have hrest : n ∉ rest := by
      have hnx := h1
      unfold nextName at hnx
      rcases List.eq_nil_or_concat' order with rfl | ⟨l, x, rfl⟩
      · cases (hd n h2).1
      · rw [List.getLast?_concat, List.dropLast_concat] at hnx
        dsimp only at hnx
        have hnd2 := List.nodup_append.1 hond
        by_cases hx : x ∈ ms
        · rw [if_pos hx] at hnx
          cases hnx
          intro h
          exact hnd2.2.2 _ h _ (by simp) rfl
        · rw [if_neg hx] at hnx
          have := popFront_dropWhile hnx
          have hs : (n :: rest).Sublist l := by rw [← this]; exact List.dropWhile_sublist _
          have := hs.nodup hnd2.1
          exact (List.nodup_cons.1 this).1
    obtain ⟨e, hperm⟩ := combinations_order k (ms.erase n) rest
      (by rw [List.length_erase_of_mem h2]; omega) (hnd.erase n) h3 (fun m hm => by
        rw [hnd.mem_erase_iff] at hm
        exact ⟨h4 m hm.2 hm.1, (hd m hm.2).2⟩)
    have hcongr : fromBothEnds (ms.erase n) (k + 1) rest = fromBothEnds ms (k + 1) rest := by
      refine fromBothEnds_congr _ _ ?_
      intro m hm
      rw [hnd.mem_erase_iff]
      constructor
      · exact fun h => h.2
      · exact fun h => ⟨by rintro rfl; exact hrest hm, h⟩
    rw [hcongr] at e hperm
    rw [fromBothEnds_step (k + 1) (by rintro rfl; cases (hd n h2).1) h1]
    refine ⟨?_, (hperm.cons n).trans (List.perm_cons_erase h2).symm⟩
    unfold combinations
    rw [h1]
    dsimp only [Bind.bind, Except.bind]
    rw [valuesToTry_ok hn]
    dsimp only
    rw [e]
    dsimp only
    rw [defaultFirst_ok hn]
    dsimp only [Pure.pure, Except.pure]
    rw [List.reverse_cons, ways_snoc]

end Xls
