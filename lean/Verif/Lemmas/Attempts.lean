/-
Lemmas about the combinations of values for missing parameters.
-/
import Verif.Model.Attempts
import Verif.Spec.Attempts
import Verif.Lemmas.NumSeries
import Verif.Lemmas.Build
import Verif.Props.ParamsObject
import Mathlib.Data.List.Nodup
import Mathlib.Data.List.Perm.Basic

set_option autoImplicit false

namespace Xls

open Spec

/-- The order in which values are tried. -/
def tried : Name → List PVal
  | .timeAlignment => [.int 0, .int (-1), .int 1]
  | .alignment => [.str c!"vertical", .str c!"horizontal"]
  | .continuity => [.bool true, .bool false]
  | .blankRows => [.bool false, .bool true]
  | .missings => [.bool false, .bool true]
  | .timeComposed => [.bool false, .bool true]
  | .timeMulticolumn => [.bool false, .bool true]
  | _ => []

theorem mem_tried (n : Name) (v : PVal) : v ∈ tried n ↔ v ∈ choices n := by
  cases n <;> simp [tried, choices] <;> tauto

theorem tried_nodup (n : Name) : (tried n).Nodup := by
  cases n <;> simp [tried]

theorem tried_head {n : Name} (h : Discoverable n) : ∃ rest, tried n = usual n :: rest := by
  cases n <;> first | exact absurd rfl h | exact ⟨_, rfl⟩

theorem valuesToTry_ok {n : Name} (h : Discoverable n) : valuesToTry n = .ok (choices n) := by
  cases n <;> first | exact absurd rfl h | rfl

theorem defaultFirst_ok {n : Name} (h : Discoverable n) : defaultFirst n (choices n) = .ok (tried n) := by
  cases n <;> first | exact absurd rfl h | rfl

theorem discoverable_iff (n : Name) : Discoverable n ↔ n ∈ likelinessOrder := by
  unfold Discoverable
  cases n <;> simp [choices, likelinessOrder]

theorem popFront_ok {ms : List Name} : ∀ {order : List Name}, order.Nodup →
    (∃ n ∈ order, n ∈ ms) → ∃ n rest, popFront ms order = .ok (n, rest) ∧ n ∈ ms ∧ rest.Nodup ∧
      n ∉ rest ∧ ∀ m ∈ ms, m ∈ order → m = n ∨ m ∈ rest := by
  intro order
  induction order with
  | nil => rintro _ ⟨n, h, _⟩; cases h
  | cons x xs ih =>
    intro hnd hex
    rw [List.nodup_cons] at hnd
    unfold popFront
    by_cases hx : x ∈ ms
    · rw [if_pos hx]
      exact ⟨x, xs, rfl, hx, hnd.2, hnd.1, fun m _ hm => by simpa using hm⟩
    · rw [if_neg hx]
      obtain ⟨n, rest, h1, h2, h3, h4, h5⟩ := ih hnd.2 (by
        obtain ⟨n, hn, hm⟩ := hex
        rcases List.mem_cons.1 hn with rfl | hn
        · exact absurd hm hx
        · exact ⟨n, hn, hm⟩)
      refine ⟨n, rest, h1, h2, h3, h4, fun m hm ho => h5 m hm ?_⟩
      rcases List.mem_cons.1 ho with rfl | ho
      · exact absurd hm hx
      · exact ho

theorem nextName_ok {ms order : List Name} (hnd : order.Nodup) (hne : ms ≠ [])
    (hsub : ∀ m ∈ ms, m ∈ order) : ∃ n rest, nextName ms order = .ok (n, rest) ∧ n ∈ ms ∧ rest.Nodup ∧
      ∀ m ∈ ms, m ≠ n → m ∈ rest := by
  obtain ⟨m0, hm0⟩ := List.exists_mem_of_ne_nil ms hne
  have hone : order ≠ [] := by rintro rfl; cases hsub m0 hm0
  rcases List.eq_nil_or_concat' order with h | ⟨l, x, rfl⟩
  · exact absurd h hone
  unfold nextName
  rw [List.getLast?_concat, List.dropLast_concat]
  dsimp only
  rw [List.nodup_append] at hnd
  by_cases hx : x ∈ ms
  · rw [if_pos hx]
    refine ⟨x, l, rfl, hx, hnd.1, fun m hm hne => ?_⟩
    have := hsub m hm
    simp only [List.mem_append, List.mem_singleton] at this
    tauto
  · rw [if_neg hx]
    have hl : ∀ m ∈ ms, m ∈ l := by
      intro m hm
      have := hsub m hm
      simp only [List.mem_append, List.mem_singleton] at this
      rcases this with h | rfl
      · exact h
      · exact absurd hm hx
    obtain ⟨n, rest, h1, h2, h3, _, h5⟩ := popFront_ok (order := l) hnd.1 ⟨m0, hl m0 hm0, hm0⟩
    refine ⟨n, rest, h1, h2, h3, fun m hm hne => ?_⟩
    rcases h5 m hm (hl m hm) with h | h
    · exact absurd h hne
    · exact h

/-- The combinations: one value for each of the names, in some order of the names. -/
theorem combinations_ok : ∀ (k : Nat) (ms order : List Name), ms.length = k + 1 → ms.Nodup →
    order.Nodup → (∀ m ∈ ms, m ∈ order ∧ Discoverable m) →
    ∃ cs ns, combinations k ms order = .ok cs ∧ ns.Perm ms ∧
      (∀ c, c ∈ cs ↔ c.map Prod.fst = ns ∧ ∀ nv ∈ c, nv.2 ∈ tried nv.1) ∧ cs.Nodup ∧
      cs.head? = some (ns.map fun n => (n, usual n))
  | 0, ms, order, hlen, _, _, hd => by
    obtain ⟨n, rfl⟩ := List.length_eq_one_iff.1 hlen
    have hn := (hd n (by simp)).2
    refine ⟨(tried n).map fun v => [(n, v)], [n], ?_, List.Perm.refl _, ?_, ?_, ?_⟩
    · unfold combinations
      dsimp only
      rw [valuesToTry_ok hn]
      dsimp only [Bind.bind, Except.bind]
      rw [defaultFirst_ok hn]
      rfl
    · intro c
      rw [List.mem_map]
      constructor
      · rintro ⟨v, hv, rfl⟩
        refine ⟨rfl, ?_⟩
        intro nv h
        rw [List.mem_singleton] at h
        subst h
        exact hv
      · rintro ⟨h1, h2⟩
        rw [List.map_eq_singleton_iff] at h1
        obtain ⟨⟨m, v⟩, rfl, rfl⟩ := h1
        exact ⟨v, h2 _ (by simp), rfl⟩
    · refine (tried_nodup n).map ?_
      intro a b h
      simpa using h
    · obtain ⟨rest, hr⟩ := tried_head hn
      rw [hr]
      rfl
  | k + 1, ms, order, hlen, hnd, hond, hd => by
    obtain ⟨n, rest, h1, h2, h3, h4⟩ := nextName_ok hond (by rintro rfl; cases hlen)
      (fun m hm => (hd m hm).1)
    have hn := (hd n h2).2
    obtain ⟨cs, ns, e, hperm, hmem, hcnd, hhead⟩ := combinations_ok k (ms.erase n) rest
      (by rw [List.length_erase_of_mem h2]; omega) (hnd.erase n) h3 (fun m hm => by
        rw [hnd.mem_erase_iff] at hm
        exact ⟨h4 m hm.2 hm.1, (hd m hm.2).2⟩)
    refine ⟨cs.flatMap fun comb => (tried n).map fun v => comb ++ [(n, v)], ns ++ [n], ?_, ?_, ?_, ?_, ?_⟩
    · unfold combinations
      rw [h1]
      dsimp only [Bind.bind, Except.bind]
      rw [valuesToTry_ok hn]
      dsimp only
      rw [e]
      dsimp only
      rw [defaultFirst_ok hn]
      rfl
    · exact (List.perm_append_singleton n ns).trans ((hperm.cons n).trans (List.perm_cons_erase h2).symm)
    · intro c
      rw [List.mem_flatMap]
      constructor
      · rintro ⟨c', hc', h⟩
        rw [List.mem_map] at h
        obtain ⟨v, hv, rfl⟩ := h
        rw [hmem] at hc'
        refine ⟨by rw [List.map_append, hc'.1]; rfl, ?_⟩
        intro nv h
        rw [List.mem_append, List.mem_singleton] at h
        rcases h with h | rfl
        · exact hc'.2 nv h
        · exact hv
      · rintro ⟨hc1, hc2⟩
        rcases List.eq_nil_or_concat' c with rfl | ⟨c', ⟨m, v⟩, rfl⟩
        · simp at hc1
        · rw [List.map_append] at hc1
          obtain ⟨a, b⟩ := List.append_inj' hc1 rfl
          simp only [List.map_cons, List.map_nil, List.cons.injEq, and_true] at b
          subst b
          exact ⟨c', (hmem c').2 ⟨a, fun nv h => hc2 nv (by simp [h])⟩,
            List.mem_map.2 ⟨v, hc2 (m, v) (by simp), rfl⟩⟩
    · rw [List.nodup_flatMap]
      refine ⟨fun c _ => (tried_nodup n).map ?_, ?_⟩
      · intro a b h
        simpa using h
      · refine hcnd.imp ?_
        intro a b hab
        show List.Disjoint _ _
        intro x hx hy
        rw [List.mem_map] at hx hy
        obtain ⟨v, _, rfl⟩ := hx
        obtain ⟨w, _, h⟩ := hy
        exact hab (List.append_inj' h rfl).1.symm
    · obtain ⟨r, hr⟩ := tried_head hn
      cases cs with
      | nil => cases hhead
      | cons c cs =>
        simp only [List.head?_cons, Option.some.injEq] at hhead
        subst hhead
        rw [List.flatMap_cons, hr]
        simp

/-- Values stored for several names. -/
def assigned (N : Nat) (c : List (Name × PVal)) (p : Params) : Params :=
  c.foldl (fun p nv => p.store nv.1 (.list (List.replicate N nv.2))) p

theorem num_store {p : Params} {N : Nat} (hN : p.num = some N) {n : Name} {vs : List PVal}
    (hn : n ≠ .missingValue) (hvs : vs.length = N) : (p.store n (.list vs)).num = some N := by
  rw [Params.num_eq_some] at hN ⊢
  refine ⟨⟨n, vs, by simp [Params.store], hn, hvs⟩, ?_⟩
  intro m ws hm hmv
  unfold Params.store at hm
  split at hm
  · cases hm; omega
  · exact hN.2 m ws hm hmv

theorem setItem_choice {p : Params} {N : Nat} (hN : p.num = some N) (h1 : 1 ≤ N) {n : Name} {v : PVal}
    (hv : v ∈ tried n) : p.setItem n v = .ok (p.store n (.list (List.replicate N v))) := by
  rw [mem_tried] at hv
  have key : n ≠ .context ∧ n ≠ .headersCoord ∧ n ≠ .timeHeaderCoord ∧ n ≠ .missingValue ∧
      v.isList = false ∧ v.isNone = false ∧ validParamValue v (validValues n) = true := by
    cases n <;> simp only [choices, List.mem_cons, List.not_mem_nil, or_false] at hv
    all_goals
      rcases hv with rfl | rfl | rfl <;>
        exact ⟨by decide, by decide, by decide, by decide, rfl, rfl, rfl⟩
  obtain ⟨k1, k2, k3, k4, k5, k6, k7⟩ := key
  unfold Params.setItem
  dsimp only
  rw [if_neg (fun h => k1 h.1), if_neg k2]
  unfold Params.setPlain
  have hl : Params.validParamList n v p.num = false := by
    unfold Params.validParamList
    cases v <;> first | rfl | cases k5
  rw [hl, if_neg (by simp), if_pos k7, hN]
  have ha : applyToAll n v (some N) (p .timeMulticolumn) = .ok (applyGeneric v (some N) (validValues n)) := by
    unfold applyToAll
    cases n <;> first | rfl | exact absurd rfl k3 | exact absurd rfl k4
  rw [ha, applyGeneric_single h1 k5 k6]

theorem tried_discoverable {n : Name} {v : PVal} (h : v ∈ tried n) : Discoverable n := by
  rw [mem_tried] at h
  intro h0
  rw [h0] at h
  cases h

theorem assignAll_ok {N : Nat} (h1 : 1 ≤ N) : ∀ (c : List (Name × PVal)) (p : Params), p.num = some N →
    (∀ nv ∈ c, nv.2 ∈ tried nv.1) →
    assignAll c p = .ok (assigned N c p) ∧ (assigned N c p).num = some N
  | [], p, hN, _ => ⟨rfl, hN⟩
  | (n, v) :: c, p, hN, h => by
    have hv := h (n, v) (by simp)
    have hmv : n ≠ .missingValue := by
      rintro rfl
      exact tried_discoverable hv rfl
    unfold assignAll
    rw [setItem_choice hN h1 hv]
    exact assignAll_ok h1 c _ (num_store hN hmv (by simp)) (fun nv hnv => h nv (by simp [hnv]))

/-- The value a combination gives to a name. -/
def chosen (c : List (Name × PVal)) (n : Name) : PVal :=
  ((c.find? fun nv => nv.1 = n).map Prod.snd).getD .none

theorem assigned_other {N : Nat} {n : Name} : ∀ (c : List (Name × PVal)) (p : Params),
    n ∉ c.map Prod.fst → assigned N c p n = p n
  | [], _, _ => rfl
  | (m, v) :: c, p, h => by
    rw [List.map_cons, List.mem_cons, not_or] at h
    show assigned N c (p.store m _) n = _
    rw [assigned_other c _ h.2]
    unfold Params.store
    rw [if_neg h.1]

theorem assigned_eq {N : Nat} : ∀ (c : List (Name × PVal)) (p : Params), (c.map Prod.fst).Nodup →
    assigned N c p = withChoice p N (c.map Prod.fst) (chosen c)
  | [], p, _ => by funext n; simp [assigned, withChoice]
  | (m, v) :: c, p, h => by
    rw [List.map_cons, List.nodup_cons] at h
    show assigned N c (p.store m _) = _
    funext n
    by_cases hn : n = m
    · subst hn
      rw [assigned_other c _ h.1]
      simp [withChoice, chosen, Params.store]
    · rw [assigned_eq c _ h.2]
      unfold withChoice
      have hc : chosen ((m, v) :: c) n = chosen c n := by
        unfold chosen
        rw [List.find?_cons_of_neg (by simpa using fun h => hn h.symm)]
      rw [hc]
      by_cases hm : n ∈ c.map Prod.fst
      · rw [if_pos hm, if_pos (by rw [List.map_cons, List.mem_cons]; exact .inr hm)]
      · rw [if_neg hm, if_neg (by rw [List.map_cons, List.mem_cons]; tauto)]
        unfold Params.store
        rw [if_neg hn]

theorem chosen_map {ns : List Name} {f : Name → PVal} {n : Name} (h : n ∈ ns) :
    chosen (ns.map fun n => (n, f n)) n = f n := by
  unfold chosen
  induction ns with
  | nil => cases h
  | cons m ns ih =>
    by_cases hm : m = n
    · subst hm; simp
    · rw [List.map_cons, List.find?_cons_of_neg (by simpa using hm)]
      exact ih (by rcases List.mem_cons.1 h with rfl | h; exact absurd rfl hm; exact h)

theorem chosen_mem {c : List (Name × PVal)} {n : Name} (h : n ∈ c.map Prod.fst) : (n, chosen c n) ∈ c := by
  unfold chosen
  induction c with
  | nil => cases h
  | cons mv c ih =>
    obtain ⟨m, v⟩ := mv
    by_cases hm : m = n
    · subst hm; simp
    · rw [List.find?_cons_of_neg (by simpa using hm)]
      refine List.mem_cons_of_mem _ (ih ?_)
      rw [List.map_cons] at h
      rcases List.mem_cons.1 h with rfl | h
      · exact absurd rfl hm
      · exact h

theorem comb_eq {c : List (Name × PVal)} (h : (c.map Prod.fst).Nodup) :
    c = (c.map Prod.fst).map fun n => (n, chosen c n) := by
  induction c with
  | nil => rfl
  | cons mv c ih =>
    obtain ⟨m, v⟩ := mv
    rw [List.map_cons, List.nodup_cons] at h
    rw [List.map_cons, List.map_cons]
    congr 1
    · simp [chosen]
    · refine (ih h.2).trans ?_
      rw [List.map_map, List.map_map]
      refine List.map_congr_left ?_
      intro nv hnv
      have hne : m ≠ nv.1 := by
        rintro rfl
        exact h.1 (List.mem_map.2 ⟨nv, hnv, rfl⟩)
      simp only [Function.comp, Prod.mk.injEq, true_and]
      have : chosen ((m, v) :: c) nv.1 = chosen c nv.1 := by
        unfold chosen
        rw [List.find?_cons_of_neg (by simpa using hne)]
      exact this.symm

theorem withChoice_inj {p : Params} {N : Nat} (h1 : 1 ≤ N) {ns : List Name} {f g : Name → PVal}
    (h : withChoice p N ns f = withChoice p N ns g) : ∀ n ∈ ns, f n = g n := by
  intro n hn
  have := congrFun h n
  unfold withChoice at this
  rw [if_pos hn, if_pos hn] at this
  obtain ⟨k, rfl⟩ : ∃ k, N = k + 1 := ⟨N - 1, by omega⟩
  simp only [List.replicate_succ, PVal.list.injEq, List.cons.injEq] at this
  exact this.1

theorem withChoice_perm {p : Params} {N : Nat} {ns ms : List Name} (h : ns.Perm ms) (f : Name → PVal) :
    withChoice p N ns f = withChoice p N ms f := by
  funext n
  unfold withChoice
  simp only [h.mem_iff]

theorem withChoice_congr {p : Params} {N : Nat} {ns : List Name} {f g : Name → PVal}
    (h : ∀ n ∈ ns, f n = g n) : withChoice p N ns f = withChoice p N ns g := by
  funext n
  unfold withChoice
  by_cases hn : n ∈ ns
  · rw [if_pos hn, if_pos hn, h n hn]
  · rw [if_neg hn, if_neg hn]

theorem attemptsOf_ok {p : Params} {f : List (Name × PVal) → Params} : ∀ {cs : List (List (Name × PVal))},
    (∀ c ∈ cs, attemptOf p c = .ok (f c)) → attemptsOf p cs = .ok (cs.map f)
  | [], _ => rfl
  | c :: cs, h => by
    unfold attemptsOf
    rw [h c (by simp)]
    dsimp only
    rw [attemptsOf_ok (cs := cs) fun c hc => h c (by simp [hc])]
    rfl

theorem hasNone_optional (n : Name) (h : n ∉ optionalNames) : hasNone (validValues n) = false := by
  revert h
  cases n <;> decide

theorem complete_withChoice {p : Params} {N : Nat} (hp : GivenFor p N) (f : Name → PVal)
    (hnum : (withChoice p N p.getMissings f).num = some N) :
    (withChoice p N p.getMissings f).isComplete = .ok true := by
  unfold Params.isComplete
  rw [hnum, completeFrom_true]
  intro n hn
  unfold Params.completeAt
  by_cases ho : n ∈ optionalNames
  · rw [if_pos (by simpa using ho)]
  rw [if_neg (by simpa using ho)]
  have hmiss : n ∈ p.getMissings ↔ p n = .none := by
    unfold Params.getMissings Params.isMissing
    rw [List.mem_filter, hasNone_optional n ho]
    constructor
    · rintro ⟨_, h⟩
      cases hv : p n <;> rw [hv] at h <;> first | rfl | cases h
    · intro h
      exact ⟨hn, by rw [h]; rfl⟩
  by_cases ht : n = .timeHeaderCoord
  · subst ht
    obtain ⟨vs, hv, hl⟩ := hp.timeHeaderC
    have : withChoice p N p.getMissings f .timeHeaderCoord = .list vs := by
      unfold withChoice
      rw [if_neg (by rw [hmiss, hv]; simp), hv]
    rw [this]
    simp [PVal.isNone, Params.len, hl]
  · have : ∃ vs, withChoice p N p.getMissings f n = .list vs ∧ vs.length = N := by
      unfold withChoice
      rcases hp.each n ho ht with h | ⟨vs, h, hl⟩
      · exact ⟨List.replicate N (f n), by rw [if_pos (hmiss.2 h)], by simp⟩
      · exact ⟨vs, by rw [if_neg (by rw [hmiss, h]; simp), h], hl⟩
    obtain ⟨vs, hv, hl⟩ := this
    rw [hv]
    simp [PVal.isNone, Params.len, hl, ht]

theorem missings_nodup (p : Params) : p.getMissings.Nodup := by
  unfold Params.getMissings
  exact List.Nodup.filter _ (by decide)

theorem not_complete {p : Params} {N : Nat} (hp : GivenFor p N) (hne : p.getMissings ≠ []) :
    p.isComplete = .ok false := by
  have hall : ∀ n ∈ Name.all, p.completeAt (some N) n = .ok true ∨ p.completeAt (some N) n = .ok false := by
    intro n _
    unfold Params.completeAt
    split
    · exact .inl rfl
    next ho =>
      split
      · exact .inr rfl
      · by_cases ht : n = .timeHeaderCoord
        · subst ht
          obtain ⟨vs, hv, hl⟩ := hp.timeHeaderC
          rw [hv]
          simp [Params.len]
          omega
        · rcases hp.each n (by simpa using ho) ht with h | ⟨vs, h, hl⟩
          · next hnn => rw [h] at hnn; exact absurd rfl hnn
          · rw [h]
            simp only [Params.len, if_neg ht]
            by_cases h' : some vs.length = some N <;> simp [h']
  have hno : p.isComplete ≠ .ok true := by
    intro h
    unfold Params.isComplete at h
    rw [hp.num, completeFrom_true] at h
    obtain ⟨n, hn⟩ := List.exists_mem_of_ne_nil _ hne
    unfold Params.getMissings at hn
    rw [List.mem_filter] at hn
    have h2 := hn.2
    unfold Params.isMissing at h2
    rw [Bool.and_eq_true] at h2
    have ho : n ∉ optionalNames := by
      intro ho
      have : hasNone (validValues n) = true := by
        revert ho
        cases n <;> decide
      rw [this] at h2
      simp at h2
    have := h n hn.1
    unfold Params.completeAt at this
    rw [if_neg (by simpa using ho), if_pos h2.1] at this
    cases this
  unfold Params.isComplete at *
  rw [hp.num] at *
  have : ∀ ns : List Name, (∀ n ∈ ns, p.completeAt (some N) n = .ok true ∨ p.completeAt (some N) n = .ok false) →
      p.completeFrom (some N) ns = .ok true ∨ p.completeFrom (some N) ns = .ok false := by
    intro ns
    induction ns with
    | nil => intro _; exact .inl rfl
    | cons n ns ih =>
      intro h
      unfold Params.completeFrom
      rcases h n (by simp) with h0 | h0
      · rw [h0]; exact ih fun m hm => h m (by simp [hm])
      · rw [h0]; exact .inr rfl
  rcases this _ hall with h | h
  · exact absurd h hno
  · exact h

end Xls
