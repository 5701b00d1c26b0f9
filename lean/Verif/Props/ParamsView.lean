/-
C77, C78, C79: assigning, forgetting and showing parameters.
-/
import Verif.Lemmas.ParamsView
import Verif.Props.ParamsObject
import Verif.Props.Tables

set_option autoImplicit false

namespace Xls

open Spec

/-! ### C43: what is missing -/

/-- C43. `get_missings` names, each once, the parameters without a value among those that need one: all but
the names, the ends, the composed headers and the contexts of the series. `num_missings` is how many there
are. -/
theorem C43_missing_names (p : Params) :
    (∀ n, n ∈ p.getMissings ↔
      p n = .none ∧ n ∉ [Name.seriesNames, .dataEnds, .composedHeadersCoord, .context]) ∧
    p.getMissings.Nodup ∧ p.numMissings = p.getMissings.length := by
  refine ⟨fun n => ?_, List.Nodup.filter _ (by decide), rfl⟩
  unfold Params.getMissings Params.isMissing
  rw [List.mem_filter]
  have h1 : (p n).isNone = true ↔ p n = .none := by cases p n <;> simp [PVal.isNone]
  have h2 : hasNone (validValues n) = false ↔
      n ∉ [Name.seriesNames, .dataEnds, .composedHeadersCoord, .context] := by cases n <;> decide
  rw [Bool.and_eq_true, h1, Bool.not_eq_true', h2]
  exact ⟨fun h => h.2, fun h => ⟨Name.mem_all n, h⟩⟩

example : ∃ p, Params.new (.dict (threeSeries.put (.known .timeHeaderCoord) (.str c!"A1"))) = .ok p ∧
    (p.store .continuity .none).numMissings = 1 ∧ (p.store .seriesNames .none).numMissings = 0 :=
  ⟨_, rfl, rfl, rfl⟩

/-! ### C77: assigning -/

/-- Only the assigned parameter changes. -/
def OnlyChanges (p p' : Params) (n : Name) (v : PVal) : Prop := p' n = v ∧ ∀ m, m ≠ n → p' m = p m

theorem onlyChanges_store (p : Params) (n : Name) (v : PVal) : OnlyChanges p (p.store n v) n v := by
  refine ⟨by simp [Params.store], fun m hm => ?_⟩
  unfold Params.store
  rw [if_neg hm]

theorem setItem_plain {p : Params} {n : Name} {v : PVal} (h1 : n ≠ .context) (h2 : n ≠ .headersCoord) :
    p.setItem n v = p.setPlain n v p.num := by
  unfold Params.setItem
  dsimp only
  rw [if_neg (fun h => h1 h.1), if_neg h2]

/-- C77. A list with an allowed entry for each series is assigned as it is. -/
theorem C77_list_partial {p : Params} {N : Nat} {n : Name} {vs : List PVal} (hN : p.num = some N)
    (h1 : n ≠ .context) (h2 : n ≠ .headersCoord) (h3 : n ≠ .frequency) (hl : vs.length = N)
    (ha : ∀ x ∈ vs, AllowedOne n x) :
    ∃ p', p.setItem n (.list vs) = .ok p' ∧ OnlyChanges p p' n (.list vs) := by
  refine ⟨_, ?_, onlyChanges_store _ _ _⟩
  rw [setItem_plain h1 h2]
  unfold Params.setPlain
  rw [if_pos]
  unfold Params.validParamList
  rw [Bool.and_eq_true, decide_eq_true_iff, hl, hN, List.all_eq_true]
  exact ⟨rfl, fun x hx => (validParamValue_iff h3 h1).2 (ha x hx)⟩

/-- C77. One allowed value goes to each series. -/
theorem C77_one_partial {p : Params} {N : Nat} {n : Name} {v : PVal} (hp : PerSeries p N) (hN : p.num = some N)
    (hpos : 1 ≤ N) (h1 : n ≠ .context) (h2 : n ≠ .headersCoord) (h3 : n ≠ .frequency) (hl : ¬ IsListValue v)
    (ha : AllowedOne n v) :
    ∃ p', p.setItem n v = .ok p' ∧
      OnlyChanges p p' n (.list (List.replicate N (if n = .missingValue then .list [v] else v))) := by
  refine ⟨_, ?_, onlyChanges_store _ _ _⟩
  rw [setItem_plain h1 h2]
  unfold Params.setPlain
  have hv := (validParamValue_iff h3 h1).2 ha
  have hl' : v.isList = false := by
    cases v <;> first | rfl | exact absurd ⟨_, rfl⟩ hl
  have hvl : Params.validParamList n v p.num = false := by
    unfold Params.validParamList
    cases v <;> first | rfl | cases hl'
  rw [hvl, if_neg (by decide), if_pos hv, hN]
  have hgen : applyGeneric v (some N) (validValues n) = .list (List.replicate N v) ∨ n = .missingValue := by
    by_cases hn : v.isNone = true
    · have e : v = .none := by cases v <;> first | rfl | cases hn
      subst e
      by_cases hm : n = .missingValue
      · exact .inr hm
      · left
        refine applyGeneric_none hpos ?_
        cases n <;> simp_all [AllowedOne, IsText, IsInteger, TrueOrFalse, PVal.number, IsListValue] <;> rfl
    · exact .inl (applyGeneric_single hpos hl' (by simpa using hn))
  by_cases hm : n = .missingValue
  · subst hm
    have : applyToAll .missingValue v (some N) (p .timeMulticolumn) = .ok (.list (List.replicate N (.list [v]))) := by
      unfold applyToAll applyMissingValue
      cases v <;> first | rfl | cases hl'
    rw [this, if_pos rfl]
  · have hg := hgen.resolve_right hm
    have : applyToAll n v (some N) (p .timeMulticolumn) = .ok (.list (List.replicate N v)) := by
      unfold applyToAll
      split
      · obtain ⟨m, hmul⟩ : ∃ m, firstOrSelf (p .timeMulticolumn) = .ok m := by
          rcases hp .timeMulticolumn with h | ⟨xs, h, hxs⟩
          · rw [h]; exact ⟨_, rfl⟩
          · rw [h]
            cases xs with
            | nil => simp at hxs; omega
            | cons x xs => exact ⟨_, rfl⟩
        unfold applyTimeHeader
        cases v <;> first | cases hl' | skip
        all_goals
          dsimp only
          rw [hmul]
          dsimp only
          rw [hg]
      · exact absurd rfl hm
      · rw [hg]
    rw [this, if_neg hm]

/-- C77. Any other value is refused, for parameters that are no lists themselves. -/
theorem C77_refused_partial {p : Params} {N : Nat} {n : Name} {v : PVal} (hN : p.num = some N) (h1 : n ≠ .context)
    (h2 : n ≠ .headersCoord) (h3 : n ≠ .frequency) (hv : ¬ AllowedOne n v)
    (hvs : ∀ vs, v = .list vs → vs.length ≠ N ∨ ∃ x ∈ vs, ¬ AllowedOne n x) :
    p.setItem n v = .error .invalidParameter := by
  rw [setItem_plain h1 h2]
  unfold Params.setPlain
  have hvl : ¬ Params.validParamList n v p.num = true := by
    unfold Params.validParamList
    cases v with
    | list vs =>
      dsimp only
      rw [Bool.and_eq_true, decide_eq_true_iff, hN, List.all_eq_true]
      rintro ⟨e1, e2⟩
      rcases hvs vs rfl with h | ⟨x, hx, hxn⟩
      · exact h (Option.some.inj e1)
      · exact hxn ((validParamValue_iff h3 h1).1 (e2 x hx))
    | _ => simp
  rw [if_neg hvl, if_neg fun h => hv ((validParamValue_iff h3 h1).1 h)]

/-- C77. As many header texts as there are series (without ranges) are assigned part by part: the last
coordinate of each is the header; those before it, if there are any, are the composed headers; no other
parameter changes. -/
theorem C77_new_headers_partial {p : Params} {N : Nat} {hs : List Str} {qs : List (List Str × Str)}
    (hN : p.num = some N) (hl : hs.length = N) (hpos : 1 ≤ N)
    (hr : ∀ s ∈ hs, '-' ∉ s ∧ ':' ∉ s) (hq : List.Forall₂ (fun h q => Composed (upper h) q.1 q.2) hs qs) :
    ∃ p', p.setItem .headersCoord (.list (hs.map .str)) = .ok p' ∧
      p' .headersCoord = .list (qs.map fun q => .str q.2) ∧
      ((∃ s ∈ hs, '_' ∈ s) → p' .composedHeadersCoord = .list (qs.map fun q => .list (q.1.map .str))) ∧
      ((∀ s ∈ hs, '_' ∉ s) → p' .composedHeadersCoord = p .composedHeadersCoord) ∧
      ∀ m, m ≠ .headersCoord → m ≠ .composedHeadersCoord → p' m = p m := by
  have hlq : qs.length = N := hq.length_eq.symm.trans hl
  have hu : unpackRanges (.list (hs.map .str)) = .ok (.list ((hs.map upper).map .str)) := by
    have := unpackElems_texts hr
    cases hs with
    | nil => rw [← hl] at hpos; exact absurd hpos (by decide)
    | cons s hs =>
      rw [List.map_cons] at this ⊢
      rw [unpackRanges, unpackGen, this]
      · rfl
      · intro h; cases h
  have hq' : List.Forall₂ (fun h q => Composed h q.1 q.2) (hs.map upper) qs := by
    rw [List.forall₂_map_left_iff]; exact hq
  have hproc : processHeaders (.list (hs.map .str)) = .ok (qs.map fun q => (q.1, .str q.2)) := by
    unfold processHeaders
    rw [hu]
    exact separateAll_composed hq'
  have hho : headersOf (qs.map fun q => (q.1, PVal.str q.2)) = .list (qs.map fun q => .str q.2) := by
    simp [headersOf, Function.comp_def]
  have hco : composedOf (qs.map fun q => (q.1, PVal.str q.2)) =
      .list (qs.map fun q => .list (q.1.map .str)) := by
    simp [composedOf, Function.comp_def]
  have hany : anyComposed (qs.map fun q => (q.1, PVal.str q.2)) = true ↔ ∃ s ∈ hs, '_' ∈ s := by
    clear hproc hq' hu hho hco hlq hr hl hN
    induction hq with
    | nil => simp [anyComposed]
    | @cons h q hs qs h1 _ ih =>
      simp only [anyComposed, List.map_cons, List.any_cons, Bool.or_eq_true] at ih ⊢
      rw [ih, List.exists_mem_cons_iff]
      have e : '_' ∈ upper h ↔ '_' ∈ h := mem_upper_sep (by decide) (by decide)
      have e' := composed_mem_iff h1
      rw [← e, e']
      cases q.1 <;> simp
  have e : p.setItem .headersCoord (.list (hs.map .str)) = (do
      let ps ← processHeaders (.list (hs.map .str))
      let p := p.store .headersCoord (headersOf ps)
      if anyComposed ps then p.setPlain .composedHeadersCoord (composedOf ps) p.num else return p) := by
    unfold Params.setItem
    dsimp only
    rw [if_neg (fun h => Name.noConfusion h.1), if_pos rfl]
  rw [e, hproc]
  show ∃ p', (if anyComposed (qs.map fun q => (q.1, PVal.str q.2)) then _ else _) = _ ∧ _
  by_cases ha : ∃ s ∈ hs, '_' ∈ s
  · have hnum : (p.store .headersCoord (headersOf (qs.map fun q => (q.1, PVal.str q.2)))).num = some N := by
      rw [hho]
      exact num_store hN (by decide) (by simp [hlq])
    have hv : Params.validParamList .composedHeadersCoord
        (composedOf (qs.map fun q => (q.1, PVal.str q.2))) (some N) = true := by
      rw [hco]
      unfold Params.validParamList
      dsimp only
      rw [Bool.and_eq_true, decide_eq_true_iff, List.length_map, hlq, List.all_eq_true]
      refine ⟨rfl, fun x hx => ?_⟩
      obtain ⟨q, _, rfl⟩ := List.mem_map.1 hx
      rfl
    rw [if_pos (hany.2 ha), hnum]
    unfold Params.setPlain
    rw [if_pos hv]
    refine ⟨_, rfl, ?_, fun _ => ?_, fun h => ?_, fun m h1 h2 => ?_⟩
    · simp [Params.store, hho]
    · simp [Params.store, hco]
    · obtain ⟨s, h1, h2⟩ := ha
      exact absurd h2 (h s h1)
    · simp [Params.store, h1, h2]
  · rw [if_neg (fun h => ha (hany.1 h))]
    refine ⟨_, rfl, ?_, fun h => absurd h ha, fun _ => ?_, fun m h1 h2 => ?_⟩
    · simp [Params.store, hho]
    · simp [Params.store]
    · simp [Params.store, h1]

/-- C77, violated: codes that the constructor takes are refused in an assignment. -/
theorem C77_frequency_violated :
    ∃ p, Params.new (.dict (Sample.two.put (.known .frequency) (.str c!"AQQQQ"))) = .ok p ∧
      p .frequency = .list [.str c!"AQQQQ", .str c!"AQQQQ"] ∧
      p.setItem .frequency (.str c!"AQQQQ") = .error .invalidParameter ∧
      p.setItem .frequency (.list [.str c!"AQQQQ", .str c!"AQQQQ"]) = .error .invalidParameter ∧
      p.setItem .frequency (.str c!"m") = .error .invalidParameter := ⟨_, rfl, rfl, rfl, rfl, rfl⟩

/-- C77, violated: a list that is too long is assigned, and then there are series without parameters. -/
theorem C77_length_violated :
    ∃ p', Sample.table.num = some 2 ∧ Sample.table.isComplete = .ok true ∧
      Sample.table.setItem .composedHeadersCoord (.list [.str c!"A1", .str c!"B1", .str c!"C1"]) = .ok p' ∧
      p'.num = some 3 ∧ p'.isComplete = .ok false := ⟨_, rfl, rfl, rfl, rfl, rfl⟩

/-- C77, violated: after assigning fewer headers the other parameters still have their old entries, so that
the object is not complete any more. -/
theorem C77_headers_violated :
    ∃ p', Sample.table.num = some 2 ∧ Sample.table.isComplete = .ok true ∧
      Sample.table.setItem .headersCoord (.str c!"D1") = .ok p' ∧
      p' .headersCoord = .list [.str c!"D1"] ∧ p'.num = some 2 ∧ p'.isComplete = .ok false :=
  ⟨_, rfl, rfl, rfl, rfl, rfl, rfl⟩

/-- C77, violated: after assigning plain headers the composed headers are still those of the old headers. -/
theorem C77_composed_violated :
    ∃ p p', Params.new (.dict [(.known .headersCoord, .str c!"B1_B2"), (.known .dataStarts, .int 3),
        (.known .frequency, .str c!"M"), (.known .timeHeaderCoord, .str c!"A1"),
        (.known .alignment, .str c!"vertical")]) = .ok p ∧
      p .composedHeadersCoord = .list [.list [.str c!"B1"]] ∧
      p.setItem .headersCoord (.str c!"D2") = .ok p' ∧
      p' .headersCoord = .list [.str c!"D2"] ∧ p' .composedHeadersCoord = p .composedHeadersCoord :=
  ⟨_, _, rfl, rfl, rfl, rfl, rfl⟩

example : ∃ p', Sample.table.num = some 2 ∧
    List.Forall₂ (fun h (q : List Str × Str) => Composed (upper h) q.1 q.2) [c!"b1_b2", c!"C2"]
      [([c!"B1"], c!"B2"), ([], c!"C2")] ∧
    Sample.table.setItem .headersCoord (.list [.str c!"b1_b2", .str c!"C2"]) = .ok p' ∧
    p' .headersCoord = .list [.str c!"B2", .str c!"C2"] ∧
    p' .composedHeadersCoord = .list [.list [.str c!"B1"], .list []] :=
  ⟨_, rfl, .cons (by unfold Composed; decide) (.cons (by unfold Composed; decide) .nil), rfl, rfl, rfl⟩

theorem Sample.table_perSeries : PerSeries Sample.table 2 := by
  intro n
  right
  cases n <;> exact ⟨_, rfl, rfl⟩

/-- One alignment per series. -/
example : ∃ p', Sample.table.setItem .alignment (.list [.str c!"horizontal", .str c!"vertical"]) = .ok p' ∧
    OnlyChanges Sample.table p' .alignment (.list [.str c!"horizontal", .str c!"vertical"]) :=
  C77_list_partial (N := 2) rfl (by decide) (by decide) (by decide) rfl (by simp [AllowedOne])

/-- One marker for all series. -/
example : ∃ p', Sample.table.setItem .missingValue (.str c!"x") = .ok p' ∧
    OnlyChanges Sample.table p' .missingValue (.list [.list [.str c!"x"], .list [.str c!"x"]]) :=
  C77_one_partial Sample.table_perSeries rfl (by decide) (by decide) (by decide) (by decide)
    (by simp [IsListValue]) trivial

/-- A list that is too long. -/
example : Sample.table.setItem .continuity (.list [.bool true, .bool true, .bool false]) =
    .error .invalidParameter :=
  C77_refused_partial (N := 2) rfl (by decide) (by decide) (by decide)
    (by simp [AllowedOne, TrueOrFalse, PVal.number]) (by rintro vs ⟨⟩; exact .inl (by decide))

/-! ### C78: forgetting -/

/-- The parameters that are forgotten: neither critical nor optional, without a default and not guessed. -/
def Forgettable (n : Name) : Prop :=
  n = .alignment ∨ n = .continuity ∨ n = .blankRows ∨ n = .missings ∨ n = .timeComposed

/-- All entries of the parameter are equal. -/
def SameForAll (v : PVal) : Prop := ∀ vs, v = .list vs → ∀ x ∈ vs, ∀ y ∈ vs, x.pyEq y = true

/-- No entry is a list or a dictionary, or the first one is a list. -/
def Comparable (v : PVal) : Prop :=
  ∀ vs, v = .list vs → (∃ x rest, vs = .list x :: rest) ∨ ∀ y ∈ vs, ¬ IsListValue y ∧ ∀ kvs, y ≠ .dict kvs

theorem noDifferences_ok {v : PVal} {N : Nat} (hN : 1 ≤ N) (hv : v = .none ∨ ∃ vs, v = .list vs ∧ vs.length = N)
    (hc : Comparable v) : ∃ b, noDifferences v = .ok b := by
  rcases hv with rfl | ⟨vs, rfl, hl⟩
  · exact ⟨_, rfl⟩
  · cases vs with
    | nil => simp at hl; omega
    | cons x xs =>
      rcases hc _ rfl with ⟨y, rest, e⟩ | h
      · rw [e]
        exact ⟨_, rfl⟩
      · have hall : (x :: xs).all PVal.hashable = true := by
          rw [List.all_eq_true]
          intro y hy
          obtain ⟨h1, h2⟩ := h y hy
          cases y <;> first | rfl | exact absurd ⟨_, rfl⟩ h1 | exact absurd rfl (h2 _)
        have hx := (h x List.mem_cons_self).1
        unfold noDifferences
        cases x <;> first | exact absurd ⟨_, rfl⟩ hx | (dsimp only; rw [if_pos hall]; exact ⟨_, rfl⟩)

theorem allowed_pyEq {n : Name} (hn : Forgettable n) {x y z : PVal} (hx : AllowedOne n x) (hy : AllowedOne n y)
    (hz : AllowedOne n z) (h1 : x.pyEq z = true) (h2 : y.pyEq z = true) : x.pyEq y = true := by
  have hb : TrueOrFalse x → TrueOrFalse y → TrueOrFalse z → x.pyEq y = true := by
    intro bx by' bz
    have key : ∀ {a b : PVal}, TrueOrFalse b → (a.pyEq b = true ↔ a.number = b.number) := by
      intro a b hb
      unfold TrueOrFalse at hb
      rcases hb with hb | hb
      · rw [pyEq_number a b hb, hb]
      · rw [pyEq_number a b hb, hb]
    rw [key by']
    exact ((key bz).1 h1).trans ((key bz).1 h2).symm
  rcases hn with rfl | rfl | rfl | rfl | rfl
  · simp only [AllowedOne] at hx hy hz
    rcases hx with rfl | rfl <;> rcases hy with rfl | rfl <;> rcases hz with rfl | rfl <;>
      revert h1 h2 <;> decide
  · exact hb hx hy hz
  · exact hb hx hy hz
  · exact hb hx hy hz
  · exact hb hx hy hz

theorem noDifferences_same {n : Name} (hn : Forgettable n) {v : PVal} {b : Bool} (h : noDifferences v = .ok b)
    (ha : ∀ vs, v = .list vs → ∀ x ∈ vs, AllowedOne n x) (hv : v = .none ∨ ∃ vs, v = .list vs) :
    b = true ↔ SameForAll v := by
  have hl : ∀ x, AllowedOne n x → ¬ IsListValue x := by
    intro x hx hl
    obtain ⟨xs, rfl⟩ := hl
    rcases hn with rfl | rfl | rfl | rfl | rfl <;> simp [AllowedOne, TrueOrFalse, PVal.number] at hx
  rcases hv with rfl | ⟨vs, rfl⟩
  · cases h
    simp [SameForAll]
  · cases vs with
    | nil => cases h
    | cons x xs =>
      have hx := ha _ rfl x List.mem_cons_self
      have e : b = xs.all fun y => y.pyEq x := by
        unfold noDifferences at h
        cases x <;> first
          | exact absurd ⟨_, rfl⟩ (hl _ hx)
          | (dsimp only at h; split at h
             · exact (Except.ok.inj h).symm
             · cases h)
      have hself : x.pyEq x = true := by
        rcases hn with rfl | rfl | rfl | rfl | rfl
        · rcases hx with rfl | rfl <;> rfl
        all_goals
          rcases hx with hx | hx
          · rw [pyEq_number x x hx, hx]
          · rw [pyEq_number x x hx, hx]
      rw [e, List.all_eq_true]
      constructor
      · intro h1 vs hvs y hy z hz
        cases hvs
        have h2 : ∀ w ∈ x :: xs, w.pyEq x = true := by
          intro w hw
          rcases List.mem_cons.1 hw with rfl | hw
          · exact hself
          · exact h1 w hw
        exact allowed_pyEq hn (ha _ rfl y hy) (ha _ rfl z hz) hx (h2 y hy) (h2 z hz)
      · intro h1 y hy
        exact h1 _ rfl y (List.mem_cons_of_mem _ hy) x List.mem_cons_self

theorem nonCriticalFrom_ok {p : Params} {differents : Bool}
    (h : differents = false → ∀ n ∉ critical, ∃ b, noDifferences (p n) = .ok b) :
    ∀ ns : List Name, ∃ names, p.nonCriticalFrom differents ns = .ok names ∧
      ∀ n, n ∈ names ↔ n ∈ ns ∧ n ∉ critical ∧ (differents = true ∨ noDifferences (p n) = .ok true)
  | [] => ⟨[], rfl, by simp⟩
  | m :: ns => by
    obtain ⟨names, h1, h2⟩ := nonCriticalFrom_ok h ns
    unfold Params.nonCriticalFrom
    by_cases hm : m ∈ critical
    · have : nonCritical m = false := by unfold nonCritical; simpa using hm
      rw [this, if_neg (by decide)]
      refine ⟨names, h1, fun n => ?_⟩
      rw [h2, List.mem_cons]
      constructor
      · rintro ⟨a, b, c⟩; exact ⟨.inr a, b, c⟩
      · rintro ⟨rfl | a, b, c⟩
        · exact absurd hm b
        · exact ⟨a, b, c⟩
    · have : nonCritical m = true := by unfold nonCritical; simpa using hm
      rw [this, if_pos rfl]
      cases differents with
      | true =>
        rw [if_pos rfl, bind_intro h1]
        refine ⟨m :: names, rfl, fun n => ?_⟩
        rw [List.mem_cons, h2, List.mem_cons]
        constructor
        · rintro (rfl | ⟨a, b, c⟩)
          · exact ⟨.inl rfl, hm, .inl rfl⟩
          · exact ⟨.inr a, b, c⟩
        · rintro ⟨rfl | a, b, c⟩
          · exact .inl rfl
          · exact .inr ⟨a, b, c⟩
      | false =>
        obtain ⟨b, hb⟩ := h rfl m hm
        rw [if_neg (by decide), bind_intro hb, bind_intro h1]
        refine ⟨_, rfl, fun n => ?_⟩
        rw [List.mem_cons]
        cases b with
        | true =>
          rw [if_pos rfl, List.mem_cons, h2]
          constructor
          · rintro (rfl | ⟨a, b, c⟩)
            · exact ⟨.inl rfl, hm, .inr hb⟩
            · exact ⟨.inr a, b, c⟩
          · rintro ⟨rfl | a, b, c⟩
            · exact .inl rfl
            · exact .inr ⟨a, b, c⟩
        | false =>
          rw [if_neg (by decide), h2]
          constructor
          · rintro ⟨a, b, c⟩
            exact ⟨.inr a, b, c⟩
          · rintro ⟨rfl | a, b, c⟩
            · rcases c with c | c
              · cases c
              · rw [hb] at c
                cases c
            · exact ⟨a, b, c⟩

theorem foldl_remove (p : Params) (ns : List Name) (n : Name) :
    ns.foldl Params.remove p n = if n ∈ ns then .none else p n := by
  induction ns generalizing p with
  | nil => simp
  | cons m ns ih =>
    rw [List.foldl_cons, ih]
    by_cases hn : n ∈ ns
    · rw [if_pos hn, if_pos (List.mem_cons_of_mem _ hn)]
    · rw [if_neg hn]
      unfold Params.remove
      by_cases e : n = m
      · rw [e]; simp [Params.store]
      · rw [if_neg (by simp [e, hn])]
        simp [Params.store, e]

theorem restoreOptional_ok {N : Nat} (hN : 1 ≤ N) : ∀ (ns : List Name) (p : Params), p.num = some N →
    (∀ n ∈ ns, n ∈ optionalNames) → ∃ p', p.restoreOptional ns = .ok p' ∧ p'.num = some N ∧
      ∀ m, p' m = if m ∈ ns then .list (List.replicate N .none) else p m
  | [], p, hp, _ => ⟨p, rfl, hp, by simp⟩
  | n :: ns, p, hp, h => by
    have hn := h n List.mem_cons_self
    have hset : p.setItem n .none = .ok (p.store n (.list (List.replicate N .none))) := by
      have key : p.setItem n .none = p.setPlain n .none p.num := by
        unfold Params.setItem
        dsimp only
        rw [if_neg (fun h => by cases h.2), if_neg]
        rintro rfl
        exact absurd hn (by decide)
      rw [key]
      unfold Params.setPlain
      rw [hp]
      simp only [optionalNames, List.mem_cons, List.not_mem_nil, or_false] at hn
      rcases hn with rfl | rfl | rfl | rfl <;>
        (rw [if_neg (by simp [Params.validParamList]), if_pos (by decide)]
         show (Except.ok (p.store _ (applyGeneric .none (some N) _)) : Except Err Params) = _
         rw [applyGeneric_none hN (by decide)])
    have hmv : n ≠ .missingValue := by rintro rfl; exact absurd hn (by decide)
    obtain ⟨p', h1, h2, h3⟩ := restoreOptional_ok hN ns (p.store n (.list (List.replicate N .none)))
      (num_store hp hmv (by simp)) fun m hm => h m (List.mem_cons_of_mem _ hm)
    refine ⟨p', ?_, h2, fun m => ?_⟩
    · unfold Params.restoreOptional
      rw [hset]
      exact h1
    · rw [h3]
      by_cases hm : m ∈ ns
      · rw [if_pos hm, if_pos (List.mem_cons_of_mem _ hm)]
      · rw [if_neg hm]
        by_cases e : m = n
        · rw [e]; simp [Params.store]
        · rw [if_neg (by simp [e, hm])]
          simp [Params.store, e]

/-- C78. Forgetting what is not critical: the critical parameters, those with a default and the guessed one
stay; the optional ones are `None` for each series; the others are missing, or stay if they are not to be
forgotten because series differ. The number of series stays. -/
theorem C78_forget {p : Params} {N : Nat} {differents : Bool} {hs : List PVal} (hp : PerSeries p N) (hN : 1 ≤ N)
    (hh : p .headersCoord = .list hs) (hc : differents = false → ∀ n ∉ critical, Comparable (p n))
    (ha : ∀ n, Forgettable n → ∀ vs, p n = .list vs → ∀ x ∈ vs, AllowedOne n x) :
    ∃ p', p.removeNonCritical differents = .ok p' ∧ p'.num = some N ∧
      (∀ n ∈ [Name.timeHeaderCoord, .headersCoord, .dataStarts, .frequency, .timeAlignment, .missingValue,
        .timeMulticolumn], p' n = p n) ∧
      (∀ n ∈ [Name.seriesNames, .dataEnds, .composedHeadersCoord, .context],
        p' n = .list (List.replicate N .none)) ∧
      ∀ n, Forgettable n → (differents = true ∨ SameForAll (p n) → p' n = .none) ∧
        (differents = false → ¬ SameForAll (p n) → p' n = p n) := by
  obtain ⟨names, h1, h2⟩ := nonCriticalFrom_ok (p := p) (differents := differents)
    (fun hd n hn => noDifferences_ok hN (hp n) (hc hd n hn)) Name.all
  unfold Params.removeNonCritical
  rw [show p.getNonCritical differents = .ok names from h1]
  set ns := names.filter fun n => !useDefault.contains n && !guessedNames.contains n with hns
  have hq : ∀ n, ns.foldl Params.remove p n = if n ∈ ns then .none else p n := foldl_remove p ns
  have hmem : ∀ n, n ∈ ns → n ∉ critical ∧ n ∉ useDefault ∧ n ∉ guessedNames := by
    intro n hn
    rw [hns, List.mem_filter, h2] at hn
    refine ⟨hn.1.2.1, ?_, ?_⟩
    · have := (Bool.and_eq_true _ _ ▸ hn.2).1
      simpa using this
    · have := (Bool.and_eq_true _ _ ▸ hn.2).2
      simpa using this
  have hqp : PerSeries (ns.foldl Params.remove p) N := by
    intro n
    rw [hq]
    by_cases hn : n ∈ ns
    · rw [if_pos hn]; exact .inl rfl
    · rw [if_neg hn]; exact hp n
  have hqn : (ns.foldl Params.remove p).num = some N := by
    refine num_perSeries hqp (n := .headersCoord) (vs := hs) ?_ (by decide)
    rw [hq, if_neg (fun hm => (hmem _ hm).1 (by decide)), hh]
  obtain ⟨p', r1, r2, r3⟩ := restoreOptional_ok hN optionalNames _ hqn fun n hn => hn
  refine ⟨p', ?_, r2, ?_, ?_, ?_⟩
  · exact r1
  · intro n hn
    rw [r3, if_neg, hq, if_neg]
    · intro hm
      obtain ⟨a, b, c⟩ := hmem n hm
      revert a b c
      simp only [List.mem_cons, List.not_mem_nil, or_false] at hn
      rcases hn with rfl | rfl | rfl | rfl | rfl | rfl | rfl <;> decide
    · simp only [List.mem_cons, List.not_mem_nil, or_false] at hn
      rcases hn with rfl | rfl | rfl | rfl | rfl | rfl | rfl <;> decide
  · intro n hn
    rw [r3, if_pos (show n ∈ optionalNames from hn)]
  · intro n hn
    have hopt : n ∉ optionalNames := by rcases hn with rfl | rfl | rfl | rfl | rfl <;> decide
    have hcr : n ∉ critical := by rcases hn with rfl | rfl | rfl | rfl | rfl <;> decide
    have hin : n ∈ ns ↔ differents = true ∨ noDifferences (p n) = .ok true := by
      rw [hns, List.mem_filter, h2]
      have hu : (!useDefault.contains n && !guessedNames.contains n) = true := by
        rcases hn with rfl | rfl | rfl | rfl | rfl <;> decide
      exact ⟨fun h => h.1.2.2, fun h => ⟨⟨Name.mem_all n, hcr, h⟩, hu⟩⟩
    have hv : p n = .none ∨ ∃ vs, p n = .list vs := (hp n).imp id fun ⟨vs, h, _⟩ => ⟨vs, h⟩
    rw [r3, if_neg hopt, hq]
    constructor
    · intro h
      rw [if_pos]
      rw [hin]
      cases differents with
      | true => exact .inl rfl
      | false =>
        right
        have hs' := h.resolve_left (by decide)
        obtain ⟨b, hb⟩ := noDifferences_ok hN (hp n) (hc rfl n hcr)
        rw [hb, (noDifferences_same hn hb (ha n hn) hv).2 hs']
    · intro hd hnot
      rw [if_neg]
      rw [hin]
      rintro (h | h)
      · rw [hd] at h; cases h
      · exact hnot ((noDifferences_same hn h (ha n hn) hv).1 rfl)

/-- What `Sample.table` becomes. -/
example : ∃ p', Sample.table.removeNonCritical false = .ok p' ∧ p'.num = some 2 ∧ p' .alignment = .none ∧
    p' .dataStarts = .list [.int 2, .int 2] := by
  obtain ⟨p', h1, h2, h3, _, h5⟩ := C78_forget (p := Sample.table) (N := 2) (differents := false)
    Sample.table_perSeries (by decide) rfl
    (by
      intro _ n _ vs hv
      cases n <;> cases hv <;> first
        | exact .inl ⟨_, _, rfl⟩
        | (right; simp [IsListValue]; done))
    (by
      intro n hn vs hv x hx
      rcases hn with rfl | rfl | rfl | rfl | rfl <;> cases hv <;> simp at hx <;> subst hx <;>
        simp [AllowedOne, TrueOrFalse, PVal.number])
  refine ⟨p', h1, h2, (h5 .alignment (.inl rfl)).1 (.inr ?_), h3 .dataStarts (by decide)⟩
  intro vs hv x hx y hy
  cases hv
  simp at hx hy
  subst hx hy
  rfl

/-- C78, violated: with composed headers in the second series only, forgetting raises `TypeError`. -/
theorem C78_composed_violated :
    ∃ p, Params.new (.dict [(.known .headersCoord, .str c!"B2-C2"), (.known .dataStarts, .int 3),
        (.known .frequency, .str c!"M"), (.known .timeHeaderCoord, .str c!"A1"),
        (.known .alignment, .str c!"vertical"),
        (.known .composedHeadersCoord, .list [.none, .list [.str c!"C1"]])]) = .ok p ∧
      p.removeNonCritical false = .error .typeError := ⟨_, rfl, rfl⟩

/-! ### C79: showing -/

/-- C79. The compact representation builds the same parameters, for series that can be told from it. -/
theorem C79_round_trip_partial {p : Params} {sps : List SParams} {ps ts : List Pos} (hp : HasSeries p sps)
    (h : Compactable ps ts sps) : ∃ d, p.compactRepr = .ok d ∧ Params.new (.dict d) = .ok p :=
  compact_new h hp

/-- The parameter is left out: it is optional and no series uses it, or every series has the default. -/
def LeftOut (n : Name) (sps : List SParams) : Prop :=
  (n ∈ [Name.seriesNames, .dataEnds, .composedHeadersCoord, .context] ∧ ∀ sp ∈ sps, rawValue sp n = .none) ∨
  (n = .timeAlignment ∧ ∀ sp ∈ sps, rawValue sp n = .int 0) ∨
  (n = .missingValue ∧ ∀ sp ∈ sps, rawValue sp n = defaultMissingValue)

/-- C79. What is shown: nothing for parameters that are left out; the value itself if it is that of every
series; otherwise the list of values. -/
theorem C79_shown {p : Params} {sps : List SParams} (hp : HasSeries p sps) (hne : sps ≠ [])
    (hm : ∀ sp ∈ sps, ∃ ms : List (Option Str), sp.missingValue = .list (ms.map fun m => m.elim .none .str)) :
    ∃ d, p.compactRepr = .ok d ∧ DistinctKeys d ∧ (∀ kv ∈ d, ∃ n, kv.1 = .known n) ∧ ∀ n,
      (LeftOut n sps → d.get? n = none) ∧
      (¬ LeftOut n sps → ∀ v, (∀ sp ∈ sps, rawValue sp n = v) → d.get? n = some v) ∧
      ((¬ ∃ v, ∀ sp ∈ sps, rawValue sp n = v) → d.get? n = some (.list (sps.map fun sp => rawValue sp n))) := by
  obtain ⟨d, h1, h2, h3, h4⟩ := compact_get hp hne fun sp hsp =>
    let ⟨_, hms⟩ := hm sp hsp
    ⟨_, hms⟩
  refine ⟨d, h1, h2, h3, fun n => ?_⟩
  obtain ⟨sp, rest, rfl⟩ := List.exists_cons_of_ne_nil hne
  have hrep : isRepeated (.list ((sp :: rest).map fun sp => rawValue sp n)) = true ↔
      ∀ q ∈ sp :: rest, rawValue q n = rawValue sp n := by
    by_cases hn : n = .missingValue
    · subst hn
      rw [List.map_cons, repeated_iff]
      · rw [← List.map_cons (f := fun sp => rawValue sp .missingValue)]
        simp only [List.mem_map, forall_exists_index, and_imp, forall_apply_eq_imp_iff₂]
      · rw [← List.map_cons (f := fun sp => rawValue sp .missingValue)]
        simp only [List.mem_map, forall_exists_index, and_imp, forall_apply_eq_imp_iff₂]
        intro a ha
        obtain ⟨as, ea⟩ := hm a ha
        obtain ⟨bs, eb⟩ := hm sp List.mem_cons_self
        simp only [rawValue]
        rw [ea, eb, PVal.pyEq]
        refine (pyEqList_texts as bs).trans ?_
        simp only [PVal.list.injEq]
        exact Iff.rfl
    · exact repeated_raw hn
  have hshown : ∀ (hr : ∀ q ∈ sp :: rest, rawValue q n = rawValue sp n),
      (d.get? n = none ∧ LeftOut n (sp :: rest)) ∨ (d.get? n = some (rawValue sp n) ∧ ¬ LeftOut n (sp :: rest)) := by
    intro hr
    have hg := h4 n
    unfold shown at hg
    rw [if_pos (hrep.2 hr)] at hg
    simp only [List.map_cons] at hg
    have hopt : optionalNames.contains n = true ↔ n ∈ [Name.seriesNames, .dataEnds, .composedHeadersCoord, .context] := by
      simp [optionalNames]
    have huse : useDefault.contains n = true ↔ n = .timeAlignment ∨ n = .missingValue := by
      simp [useDefault]
    by_cases ho : (optionalNames.contains n && (rawValue sp n).isNone) = true
    · rw [if_pos ho] at hg
      left
      refine ⟨hg, .inl ⟨hopt.1 (Bool.and_eq_true _ _ ▸ ho).1, fun q hq => ?_⟩⟩
      have hx := (Bool.and_eq_true _ _ ▸ ho).2
      rw [hr q hq]
      cases hy : rawValue sp n <;> rw [hy] at hx <;> first | rfl | cases hx
    · rw [if_neg ho] at hg
      have hnl : ¬ (n ∈ [Name.seriesNames, .dataEnds, .composedHeadersCoord, .context] ∧
          ∀ q ∈ sp :: rest, rawValue q n = .none) := by
        rintro ⟨a, b⟩
        apply ho
        rw [hopt.2 a, b sp List.mem_cons_self]
        rfl
      have hdef : ∀ (hu : n = .timeAlignment ∨ n = .missingValue),
          ((defaultValue n).getD .none).pyEq (rawValue sp n) = true ↔
            rawValue sp n = (defaultValue n).getD .none := by
        rintro (rfl | rfl)
        · refine (pyEq_int 0 sp.timeAlignment).trans ?_
          exact eq_comm
        · obtain ⟨ms, ems⟩ := default_texts
          obtain ⟨xs, exs⟩ := hm sp List.mem_cons_self
          show defaultMissingValue.pyEq sp.missingValue = true ↔ sp.missingValue = defaultMissingValue
          rw [ems, exs, PVal.pyEq]
          refine (pyEqList_texts ms xs).trans ?_
          simp only [PVal.list.injEq]
          exact eq_comm
      by_cases hd : (useDefault.contains n && ((defaultValue n).getD .none).pyEq (rawValue sp n)) = true
      · rw [if_pos hd] at hg
        have hu := huse.1 (Bool.and_eq_true _ _ ▸ hd).1
        have hv := (hdef hu).1 (Bool.and_eq_true _ _ ▸ hd).2
        left
        refine ⟨hg, .inr ?_⟩
        rcases hu with rfl | rfl
        · exact .inl ⟨rfl, fun q hq => (hr q hq).trans hv⟩
        · exact .inr ⟨rfl, fun q hq => (hr q hq).trans hv⟩
      · rw [if_neg hd] at hg
        right
        refine ⟨hg, ?_⟩
        rintro (hl | ⟨rfl, hl⟩ | ⟨rfl, hl⟩)
        · exact hnl hl
        · apply hd
          rw [huse.2 (.inl rfl), (hdef (.inl rfl)).2 (hl sp List.mem_cons_self)]
          rfl
        · apply hd
          rw [huse.2 (.inr rfl), (hdef (.inr rfl)).2 (hl sp List.mem_cons_self)]
          rfl
  refine ⟨fun hl => ?_, fun hl v hv => ?_, fun hno => ?_⟩
  · have hr : ∀ q ∈ sp :: rest, rawValue q n = rawValue sp n := by
      rcases hl with ⟨_, hl⟩ | ⟨_, hl⟩ | ⟨_, hl⟩ <;>
        exact fun q hq => (hl q hq).trans (hl sp List.mem_cons_self).symm
    rcases hshown hr with h | h
    · exact h.1
    · exact absurd hl h.2
  · rcases hshown (fun q hq => (hv q hq).trans (hv sp List.mem_cons_self).symm) with h | h
    · exact absurd h.2 hl
    · rw [h.1, hv sp List.mem_cons_self]
  · have hg := h4 n
    unfold shown at hg
    rw [if_neg] at hg
    · exact hg
    · intro hr
      exact hno ⟨_, hrep.1 hr⟩

/-- Two series of different length with different markers. -/
def Sample.shownSeries : List SParams :=
  [{ Sample.monthly with headerCoord := c!"B1", dataEnds := some 9 },
   { Sample.monthly with
      headerCoord := c!"C1", dataEnds := some 12, seriesName := some c!"PBI"
      missingValue := .list [.none, .str c!"..."] }]

example : ∃ d, (Sample.paramsOf Sample.shownSeries).compactRepr = .ok d ∧
    Params.new (.dict d) = .ok (Sample.paramsOf Sample.shownSeries) :=
  C79_round_trip_partial (sps := Sample.shownSeries) (ps := [(1, 2), (1, 3)]) (ts := [(1, 1), (1, 1)]) (fun _ => rfl)
    { nonempty := by simp [Sample.shownSeries]
      headerCells := by decide
      positive := by unfold Positive; decide
      different := by decide
      timeCells := by decide
      timesPositive := by unfold Positive; decide
      separate := .inl ⟨(1, 1), by decide⟩
      frequency := by unfold FreqCode; decide
      context := by decide
      composed := .inl (by decide)
      multicolumn := by decide
      timeAlignment := by decide
      markers := by
        intro sp hsp
        simp only [Sample.shownSeries, List.mem_cons, List.not_mem_nil, or_false] at hsp
        rcases hsp with rfl | rfl
        · exact ⟨[], rfl⟩
        · exact ⟨[none, some c!"..."], rfl⟩
      aligned := by decide
      below := fun _ => .cons (by decide) (.cons (by decide) .nil)
      beside := fun h => absurd (h _ List.mem_cons_self) (by decide) }

/-- C79, violated: the same composed header in all series is shown once, and taken for one text per series. -/
theorem C79_composed_violated :
    ∃ d p d' p', Params.new (.dict d) = .ok p ∧
      p .composedHeadersCoord = .list [.list [.str c!"B1"], .list [.str c!"B1"]] ∧
      p.compactRepr = .ok d' ∧ Params.new (.dict d') = .ok p' ∧
      p' .composedHeadersCoord = .list [.str c!"B1", .str c!"B1"] :=
  ⟨[(.known .headersCoord, .list [.str c!"B1_B2", .str c!"B1_C2"]), (.known .dataStarts, .int 3),
    (.known .frequency, .str c!"M"), (.known .timeHeaderCoord, .str c!"A1"),
    (.known .alignment, .str c!"vertical")], _, _, _, rfl, rfl, rfl, rfl, rfl⟩

/-- C79, violated: the compact representation of series with a context is refused. -/
theorem C79_context_violated :
    ∃ d p d', Params.new (.dict d) = .ok p ∧ p.compactRepr = .ok d' ∧
      Params.new (.dict d') = .error .invalidParameter :=
  ⟨[(.known .headersCoord, .str c!"B2-C2"), (.known .dataStarts, .int 3),
    (.known .frequency, .str c!"M"), (.known .timeHeaderCoord, .str c!"A1"),
    (.known .alignment, .str c!"vertical"), (.known .context, .dict [(c!"Total", .str c!"B1-C1")])],
    _, _, rfl, rfl, rfl⟩

end Xls
