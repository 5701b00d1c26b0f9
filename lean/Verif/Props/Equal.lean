/-
C116: parameters that compare equal.
-/
import Verif.Spec.Equal
import Verif.Lemmas.Equal2
import Verif.Props.MovedLeftOut

set_option autoImplicit false

namespace Xls

open Spec

/-- Values compare equal exactly if they are written as the same numbers, texts and lists. -/
theorem pyEq_canon {fl : Bool} {v w : PVal} (hv : Ordinary fl v) (hw : Ordinary fl w) :
    v.pyEq w = true ↔ canon fl v = canon fl w := by
  induction hv generalizing w with
  | none =>
    cases hw with
    | decimal q h => simp [PVal.pyEq, canon]
    | list h => rw [canon_list]; simp [PVal.pyEq, canon]
    | _ => cases fl <;> simp [PVal.pyEq, canon]
  | str s =>
    cases hw with
    | decimal q h => simp [PVal.pyEq, canon]
    | list h => rw [canon_list]; simp [PVal.pyEq, canon]
    | _ => cases fl <;> simp [PVal.pyEq, canon]
  | bool b =>
    cases hw with
    | list h => rw [canon_list]; cases fl <;> simp [PVal.pyEq, PVal.number, canon]
    | bool c => cases fl <;> cases b <;> cases c <;> simp [PVal.pyEq, PVal.number, canon]
    | int i =>
      cases fl <;> cases b <;> simp [PVal.pyEq, PVal.number, canon] <;>
        exact ⟨fun h => by exact_mod_cast h, fun h => by exact_mod_cast h⟩
    | decimal q h =>
      subst h
      cases b <;> simp [PVal.pyEq, PVal.number, canon]
    | _ => cases fl <;> simp [PVal.pyEq, PVal.number, canon]
  | int i =>
    cases hw with
    | list h => rw [canon_list]; cases fl <;> simp [PVal.pyEq, PVal.number, canon]
    | bool c => cases fl <;> cases c <;> simp [PVal.pyEq, PVal.number, canon]
    | int j => cases fl <;> simp [PVal.pyEq, PVal.number, canon]
    | decimal q h =>
      subst h
      simp [PVal.pyEq, PVal.number, canon]
    | _ => cases fl <;> simp [PVal.pyEq, PVal.number, canon]
  | decimal q h =>
    subst h
    cases hw with
    | list h => rw [canon_list]; simp [PVal.pyEq, PVal.number, canon]
    | bool c => cases c <;> simp [PVal.pyEq, PVal.number, canon]
    | _ => simp [PVal.pyEq, PVal.number, canon]
  | list h ih =>
    rename_i vs
    cases hw with
    | list h' =>
      rename_i ws
      rw [canon_list, canon_list, PVal.pyEq]
      have key : ∀ (vs ws : List PVal), (∀ v ∈ vs, ∀ {w}, Ordinary fl w → (v.pyEq w = true ↔ canon fl v = canon fl w)) →
          (∀ w ∈ ws, Ordinary fl w) →
          (PVal.pyEqList vs ws = true ↔ vs.map (canon fl) = ws.map (canon fl)) := by
        intro vs
        induction vs with
        | nil => intro ws _ _; cases ws <;> simp [PVal.pyEqList]
        | cons v vs ihv =>
          intro ws h1 h2
          cases ws with
          | nil => simp [PVal.pyEqList]
          | cons w ws =>
            rw [PVal.pyEqList, Bool.and_eq_true, List.map_cons, List.map_cons, List.cons.injEq,
              h1 v (by simp) (h2 w (by simp)),
              ihv ws (fun x hx => h1 x (List.mem_cons_of_mem _ hx)) (fun x hx => h2 x (List.mem_cons_of_mem _ hx))]
      rw [key vs ws (fun v hv {w} hw => ih v hv hw) h', PVal.list.injEq]
    | decimal q h => rw [canon_list]; simp [PVal.pyEq, canon]
    | _ => rw [canon_list]; cases fl <;> simp [PVal.pyEq, canon]

theorem params_pyEq_canon {p q : Params} (hp : OrdinaryParams p) (hq : OrdinaryParams q) :
    p.pyEq q = true ↔ canonParams p = canonParams q := by
  unfold Params.pyEq
  rw [List.all_eq_true]
  constructor
  · intro h
    funext n
    exact (pyEq_canon (hp n) (hq n)).1 (h n (Name.mem_all n))
  · intro h n _
    exact (pyEq_canon (hp n) (hq n)).2 (congrFun h n)

theorem lookupKey_mem {k : Str} {v : PVal} : ∀ {kvs : List (Str × PVal)}, (kvs.map Prod.fst).Nodup → (k, v) ∈ kvs →
    PVal.lookupKey k kvs = some v
  | [], _, h => by cases h
  | (k', v') :: rest, hk, h => by
    rw [List.map_cons, List.nodup_cons] at hk
    rw [PVal.lookupKey]
    rcases List.mem_cons.1 h with h | h
    · injection h with h1 h2
      rw [if_pos h1.symm, h2]
    · rw [if_neg, lookupKey_mem hk.2 h]
      rintro rfl
      exact hk.1 (List.mem_map.2 ⟨(k', v), h, rfl⟩)

/-- Any value without NaN compares equal to itself. -/
theorem pyEq_self {v : PVal} (h : WithoutNaN v) : v.pyEq v = true := by
  induction h with
  | none => rfl
  | bool b => simp [PVal.pyEq, PVal.number]
  | int i => simp [PVal.pyEq, PVal.number]
  | decimal q => simp [PVal.pyEq, PVal.number]
  | str s => simp [PVal.pyEq]
  | list _ ih =>
    rename_i vs _
    rw [PVal.pyEq]
    induction vs with
    | nil => rfl
    | cons v vs ihv =>
      rw [PVal.pyEqList, ih v (by simp), ihv (fun x hx => by rename_i h; exact h x (List.mem_cons_of_mem _ hx))
        (fun x hx => ih x (List.mem_cons_of_mem _ hx))]
      rfl
  | dict _ hk ih =>
    rename_i kvs _
    rw [PVal.pyEq, beq_self_eq_true, Bool.true_and]
    have key : ∀ l : List (Str × PVal), (∀ kv ∈ l, kv ∈ kvs) → PVal.pyEqDict l kvs = true := by
      intro l
      induction l with
      | nil => intro _; rw [PVal.pyEqDict]
      | cons kv l ihl =>
        intro hl
        obtain ⟨k, v⟩ := kv
        rw [PVal.pyEqDict, lookupKey_mem (v := v) hk (hl _ (by simp)), ihl fun x hx => hl x (List.mem_cons_of_mem _ hx)]
        dsimp only
        rw [ih (k, v) (hl _ (by simp))]
        rfl
    exact key kvs fun _ h => h

/-- C116. Parameters compare equal to themselves, whatever they hold but NaN. -/
theorem C116_reflexive {p : Params} (h : ∀ n, WithoutNaN (p n)) : p.pyEq p = true := by
  unfold Params.pyEq
  rw [List.all_eq_true]
  exact fun n _ => pyEq_self (h n)

/-- C116. Comparing parameters is an equivalence. -/
theorem C116_equivalence {p q r : Params} (hp : OrdinaryParams p) (hq : OrdinaryParams q) (hr : OrdinaryParams r) :
    p.pyEq p = true ∧ (p.pyEq q = true → q.pyEq p = true) ∧
      (p.pyEq q = true → q.pyEq r = true → p.pyEq r = true) := by
  rw [params_pyEq_canon hp hp, params_pyEq_canon hp hq, params_pyEq_canon hq hp, params_pyEq_canon hq hr,
    params_pyEq_canon hp hr]
  exact ⟨rfl, Eq.symm, Eq.trans⟩

/-- C116. Parameters that compare equal clean and read any worksheet alike. -/
theorem C116_scrape (ext : Ext) {p q : Params} (hp : OrdinaryParams p) (hq : OrdinaryParams q) (h : p.pyEq q = true)
    (s : Sheet) : (scrape ext q s).1 = (scrape ext p s).1 ∧ (scrape ext q s).2.2 = (scrape ext p s).2.2 := by
  have h1 := (params_pyEq_canon hp hq).1 h
  have h2 := scrape_canon ext p s
  have h3 := scrape_canon ext q s
  rw [← h1, h2] at h3
  injection h3 with h4 h5
  injection h5 with _ h6
  exact ⟨h4.symm, h6.symm⟩

/-- The parameters left out are the same. -/
theorem equal_leftOut {p q : Params} (hp : OrdinaryParams p) (hq : OrdinaryParams q) (h : p.pyEq q = true) (n : Name) :
    LeftOut q n ↔ LeftOut p n := by
  have h1 : canonAt n (p n) = canonAt n (q n) := congrFun ((params_pyEq_canon hp hq).1 h) n
  have e : ∀ v : PVal, v = .none ↔ v.isNone = true := fun v => by cases v <;> simp [PVal.isNone]
  unfold LeftOut
  rw [e, e]
  unfold canonAt at h1
  rw [← canon_isNone (decide (n = .missingValue)) (q n), ← h1, canon_isNone]

theorem equal_list {n : Name} {v w : PVal} (h : canonAt n v = canonAt n w) {vs : List PVal} (hv : v = .list vs) :
    ∃ ws, w = .list ws ∧ ws.length = vs.length := by
  subst hv
  unfold canonAt at h
  rw [canon_list] at h
  revert h
  generalize decide (n = Name.missingValue) = fl
  intro h
  cases w with
  | list ws =>
    rw [canon_list] at h
    injection h with h
    exact ⟨ws, rfl, by simpa using (congrArg List.length h).symm⟩
  | bool b => cases fl <;> cases h
  | int i => cases fl <;> cases h
  | _ => cases h

theorem equal_givenFor {p q : Params} (hp : OrdinaryParams p) (hq : OrdinaryParams q) (h : p.pyEq q = true) {N : Nat}
    (hN : GivenFor p N) : GivenFor q N := by
  have hc := (params_pyEq_canon hp hq).1 h
  refine ⟨?_, hN.pos, ?_, ?_⟩
  · rw [← canon_num, ← hc, canon_num]
    exact hN.num
  · intro n h1 h2
    rcases hN.each n h1 h2 with h3 | ⟨vs, h3, h4⟩
    · exact .inl ((equal_leftOut hp hq h n).2 ⟨h3, h1⟩).1
    · obtain ⟨ws, h5, h6⟩ := equal_list (congrFun hc n) h3
      exact .inr ⟨ws, h5, h6.trans h4⟩
  · obtain ⟨vs, h1, h2⟩ := hN.timeHeaderC
    obtain ⟨ws, h5, h6⟩ := equal_list (congrFun hc .timeHeaderCoord) h1
    exact ⟨ws, h5, by omega⟩

/-- C116. Calls with parameters that compare equal, for the same worksheet, give the same answer or raise the same
exception, in safe mode or not, with parameters left out or not. -/
theorem C116_call (ext : Ext) (wb : List Nat) (w w2 : World) (given given2 : Given) (name : Str)
    (safe preserve preserve2 : Bool) (r N : Nat) {p q : Params} (hreq : Requested ext wb w name r)
    (hwb : ∀ q ∈ wb, q < w.nextSheet ∧ WellFormed (w.sheets q)) (hbooks : SameBooks w w2)
    (hgiven : GivenWith given w p) (hgiven2 : GivenWith given2 w2 q) (hp : OrdinaryParams p) (hq : OrdinaryParams q)
    (heq : p.pyEq q = true) (hN : GivenFor p N) (hd : ∀ n, LeftOut p n → Discoverable n) :
    outcome (getDataFrames ext wb given2 name safe preserve2 w2) =
      outcome (getDataFrames ext wb given name safe preserve w) := by
  obtain ⟨hb1, hb2⟩ := hbooks
  have hreq2 : Requested ext wb w2 name r := by
    unfold Requested at hreq ⊢
    rw [hb1]
    exact hreq
  refine calls_pairs hreq hreq2 hwb (by rw [hb1, hb2]; exact hwb) hgiven hgiven2 (by rw [hb1]) ?_
  refine pairedAttempts_choices hN (equal_givenFor hp hq heq hN) hd (equal_leftOut hp hq heq) ?_
  intro a b ha hb hab
  rw [hb1]
  have hc : canonParams a = canonParams b := by
    funext n
    show canonAt n (a n) = canonAt n (b n)
    by_cases hn : LeftOut p n
    · rw [hab n hn]
    · rw [(ha n).2 hn, (hb n).2 (fun h => hn ((equal_leftOut hp hq heq n).1 h))]
      exact congrFun ((params_pyEq_canon hp hq).1 heq) n
  have h2 := scrape_canon ext a (w.sheets r)
  have h3 := scrape_canon ext b (w.sheets r)
  rw [← hc, h2] at h3
  injection h3 with h4 _
  exact h4.symm

/-! ### Examples -/

namespace Sample

/-- The table with gaps; 3 also marks a missing value. -/
def markedInt : Params := fun n =>
  if n = .missingValue then .list [.list [.str c!"...", .int 3], .list [.str c!"...", .int 3]] else gapUnknown n

/-- The same: the mark given as a decimal number, `continuity` as 0 or 1. -/
def markedFloat : Params := fun n =>
  if n = .missingValue then
    .list [.list [.str c!"...", .float (.fin 3)], .list [.str c!"...", .float (.fin 3)]]
  else if n = .continuity then .list [.int 1, .int 1] else gapUnknown n

theorem marked_ordinary : OrdinaryParams markedInt ∧ OrdinaryParams markedFloat := by
  constructor
  all_goals
    intro n
    cases n <;> first
      | exact .none
      | (refine .list fun v hv => ?_
         simp only [List.mem_cons, List.not_mem_nil, or_false] at hv
         rcases hv with rfl | rfl <;> first
           | exact .none
           | exact .bool _
           | exact .int _
           | exact .str _
           | (refine .list fun v hv => ?_
              simp only [List.mem_cons, List.not_mem_nil, or_false] at hv
              rcases hv with rfl | rfl <;> first
                | exact .str _
                | exact .int _
                | exact .decimal _ rfl))

theorem markedInt_leftOut (n : Name) (h : LeftOut markedInt n) : Discoverable n := by
  obtain ⟨h, h2⟩ := h
  cases n <;> first
    | (cases h; done)
    | exact absurd (by decide) h2
    | (simp [Discoverable, choices]; done)

theorem markedInt_given : GivenFor markedInt 2 where
  num := by decide
  pos := by decide
  each := by
    intro n h1 h2
    cases n <;> first
      | exact absurd rfl h2
      | exact absurd (by decide) h1
      | exact .inl rfl
      | exact .inr ⟨_, rfl, rfl⟩
  timeHeaderC := ⟨_, rfl, by decide⟩

end Sample

/-- Two calls with equal parameters. -/
example (safe : Bool) :
    outcome (getDataFrames Sample.ext0 [0] (.object 0) [] safe true (Sample.world Sample.gapSheet Sample.markedFloat)) =
      outcome (getDataFrames Sample.ext0 [0] (.object 0) [] safe true
        (Sample.world Sample.gapSheet Sample.markedInt)) := by
  refine C116_call Sample.ext0 [0] _ _ (.object 0) (.object 0) [] safe true true 0 2 ⟨by simp, by simp, .inl ⟨rfl, rfl⟩⟩
    ?_ ⟨rfl, rfl⟩ (.inl ⟨0, rfl, rfl⟩) (.inl ⟨0, rfl, rfl⟩) Sample.marked_ordinary.1 Sample.marked_ordinary.2
    (by decide +kernel) Sample.markedInt_given Sample.markedInt_leftOut
  intro q hq
  rw [List.mem_singleton] at hq
  subst hq
  exact ⟨by decide, Sample.gap_wellFormed⟩

/-- What both give: the mark, 3, is not read as a number. -/
example : outcome (getDataFrames Sample.ext0 [0] (.object 0) [] false true
      (Sample.world Sample.gapSheet Sample.markedFloat)) =
    .ok (.dfs (.one { Sample.gapFrame with data := [[.fin 10, .nan, .fin 12], [.fin 5, .nan, .fin (-4)]] }), c!"S") := by
  decide +kernel

/-- Comparing says no to another mark. -/
example : (Sample.markedInt.pyEq Sample.gapUnknown) = false := by decide +kernel

end Xls
