/-
The compact representation of a `Parameters` object.
-/
import Verif.Model.ParamsView
import Verif.Lemmas.Describes

set_option autoImplicit false

namespace Xls

open Spec

/-! ### Python equality of the values of a parameter -/

/-- A text or `None`. -/
def textOrNone (m : Option Str) : PVal := m.elim .none .str

theorem pyEq_textOrNone (a b : Option Str) : (textOrNone a).pyEq (textOrNone b) = true ↔ textOrNone a = textOrNone b := by
  cases a <;> cases b <;> simp [textOrNone, PVal.pyEq]

theorem pyEqList_texts (as bs : List (Option Str)) :
    PVal.pyEqList (as.map textOrNone) (bs.map textOrNone) = true ↔ as.map textOrNone = bs.map textOrNone := by
  induction as generalizing bs with
  | nil => cases bs <;> simp [PVal.pyEqList]
  | cons a as ih =>
    cases bs with
    | nil => simp [PVal.pyEqList]
    | cons b bs =>
      rw [List.map_cons, List.map_cons, PVal.pyEqList, Bool.and_eq_true, pyEq_textOrNone, ih]
      constructor
      · rintro ⟨h1, h2⟩; rw [h1, h2]
      · intro h; exact ⟨(List.cons.inj h).1, (List.cons.inj h).2⟩

theorem pyEqList_strs (as bs : List Str) :
    PVal.pyEqList (as.map .str) (bs.map .str) = true ↔ as.map PVal.str = bs.map PVal.str := by
  have := pyEqList_texts (as.map some) (bs.map some)
  rw [List.map_map, List.map_map] at this
  exact this

theorem pyEq_bool (a b : Bool) : (PVal.bool a).pyEq (.bool b) = true ↔ PVal.bool a = .bool b := by
  cases a <;> cases b <;> simp [PVal.pyEq, PVal.number]

theorem pyEq_int (a b : Int) : (PVal.int a).pyEq (.int b) = true ↔ PVal.int a = .int b := by
  simp [PVal.pyEq, PVal.number]

theorem pyEq_strs (a b : List Str) :
    (PVal.list (a.map .str)).pyEq (.list (b.map .str)) = true ↔ PVal.list (a.map .str) = .list (b.map .str) := by
  rw [PVal.pyEq, pyEqList_strs]
  simp

/-- Python's equality tells the values of a parameter in two series apart. -/
theorem pyEq_raw (a b : SParams) {n : Name} (hn : n ≠ .missingValue) :
    (rawValue a n).pyEq (rawValue b n) = true ↔ rawValue a n = rawValue b n := by
  cases n with
  | alignment => cases ha : a.alignment <;> cases hb : b.alignment <;> simp [rawValue, ha, hb, PVal.pyEq]
  | seriesNames => exact pyEq_textOrNone a.seriesName b.seriesName
  | headersCoord => simp [rawValue, PVal.pyEq]
  | composedHeadersCoord =>
    cases ha : a.composedHeaders <;> cases hb : b.composedHeaders <;>
      simp only [rawValue, ha, hb, Option.elim, PVal.pyEq, reduceCtorEq, Bool.false_eq_true]
    rw [pyEqList_strs]
    simp
  | context =>
    cases ha : a.context <;> cases hb : b.context <;>
      simp only [rawValue, ha, hb, Option.elim, PVal.pyEq, reduceCtorEq, Bool.false_eq_true]
    rw [pyEqList_strs]
    simp
  | dataStarts => exact pyEq_int _ _
  | dataEnds =>
    cases ha : a.dataEnds <;> cases hb : b.dataEnds <;> simp [rawValue, ha, hb, Option.elim, PVal.pyEq, PVal.number]
  | continuity => exact pyEq_bool _ _
  | blankRows => exact pyEq_bool _ _
  | missings => exact pyEq_bool _ _
  | missingValue => exact absurd rfl hn
  | timeAlignment => exact pyEq_int _ _
  | timeMulticolumn => exact pyEq_bool _ _
  | timeHeaderCoord =>
    cases ha : a.timeHeader <;> cases hb : b.timeHeader <;> simp only [rawValue, ha, hb]
    · simp [PVal.pyEq]
    · simp [PVal.pyEq]
    · simp [PVal.pyEq]
    · exact pyEq_strs _ _
  | timeComposed => exact pyEq_bool _ _
  | frequency => simp [rawValue, PVal.pyEq]

/-! ### What is shown -/

/-- What is shown of a parameter with these entries. -/
def shown (n : Name) (xs : List PVal) : Option PVal :=
  if isRepeated (.list xs) then
    match xs with
    | [] => none
    | x :: _ =>
      if optionalNames.contains n && x.isNone then none
      else if useDefault.contains n && ((defaultValue n).getD .none).pyEq x then none
      else some x
  else some (.list xs)

theorem compactOne_shown {p : Params} {n : Name} {x : PVal} {xs : List PVal} (hp : p n = .list (x :: xs))
    (hm : n = .missingValue → IsListValue x) : p.compactOne n = .ok (shown n (x :: xs)) := by
  unfold Params.compactOne
  have hmiss : p.isMissing n = false := by unfold Params.isMissing; rw [hp]; rfl
  rw [hmiss, if_neg (by decide)]
  unfold shown
  cases hr : isRepeated (.list (x :: xs)) with
  | true =>
    rw [if_pos rfl]
    have hun : p.isUnused n = .ok (optionalNames.contains n && x.isNone) := by
      unfold Params.isUnused
      rw [hp, hr]
      cases optionalNames.contains n <;> rfl
    have hdf : p.isDefault n = .ok (useDefault.contains n && ((defaultValue n).getD .none).pyEq x) := by
      unfold Params.isDefault
      rw [hp, hr]
      cases useDefault.contains n <;> rfl
    rw [bind_intro hun]
    dsimp only
    cases (optionalNames.contains n && x.isNone) with
    | true => rfl
    | false =>
      simp only [Bool.false_eq_true, if_false]
      rw [bind_intro hdf]
      cases (useDefault.contains n && ((defaultValue n).getD .none).pyEq x) with
      | true => rfl
      | false =>
        simp only [Bool.false_eq_true, if_false]
        rw [hp, hr]
        rfl
  | false =>
    simp only [Bool.false_eq_true, if_false]
    have hun : p.isUnused n = .ok false := by
      unfold Params.isUnused
      rw [hp, hr]
      cases optionalNames.contains n <;> rfl
    have hdf : p.isDefault n = .ok false := by
      unfold Params.isDefault
      rw [hp, hr]
      by_cases hd : useDefault.contains n = true
      · rw [hd]
        simp only [Bool.false_eq_true, if_true, if_false]
        have hn : n = .timeAlignment ∨ n = .missingValue := by
          simpa [useDefault] using hd
        rcases hn with rfl | rfl
        · rfl
        · obtain ⟨ys, rfl⟩ := hm rfl
          rfl
      · rw [if_neg hd]
    rw [bind_intro hun]
    simp only [Bool.false_eq_true, if_false]
    rw [bind_intro hdf]
    simp only [Bool.false_eq_true, if_false]
    rw [hp, hr]
    simp only [Bool.false_eq_true, if_false]
    rfl

theorem compactFrom_get {p : Params} {f : Name → Option PVal} :
    ∀ (ns : List Name), ns.Nodup → (∀ n ∈ ns, p.compactOne n = .ok (f n)) →
      ∃ d, p.compactFrom ns = .ok d ∧ DistinctKeys d ∧ (∀ kv ∈ d, ∃ n ∈ ns, kv.1 = .known n) ∧
        ∀ n ∈ ns, d.get? n = f n
  | [], _, _ => ⟨[], rfl, List.nodup_nil, by simp, by simp⟩
  | n :: ns, hnd, h => by
    obtain ⟨d, hd, hdist, hk, hg⟩ := compactFrom_get ns (List.nodup_cons.1 hnd).2
      fun m hm => h m (List.mem_cons_of_mem _ hm)
    have hn := (List.nodup_cons.1 hnd).1
    have hnone : d.get? n = none := by
      cases hv : d.get? n with
      | none => rfl
      | some v =>
        obtain ⟨m, hm, e⟩ := hk _ (PDict.mem_of_get? hv)
        cases e
        exact absurd hm hn
    have hstep : p.compactFrom (n :: ns) = .ok (match f n with
        | Option.none => d
        | some v => (.known n, v) :: d) := by
      rw [Params.compactFrom, bind_intro (h n List.mem_cons_self), bind_intro hd]
      rfl
    cases hf : f n with
    | none =>
      rw [hf] at hstep
      refine ⟨d, hstep, hdist, fun kv hkv => ?_, fun m hm => ?_⟩
      · obtain ⟨m, hm, e⟩ := hk kv hkv
        exact ⟨m, List.mem_cons_of_mem _ hm, e⟩
      · rcases List.mem_cons.1 hm with rfl | hm
        · rw [hnone, hf]
        · exact hg m hm
    | some v =>
      rw [hf] at hstep
      refine ⟨(.known n, v) :: d, hstep, ?_, fun kv hkv => ?_, fun m hm => ?_⟩
      · unfold DistinctKeys
        rw [List.map_cons, List.nodup_cons]
        refine ⟨?_, hdist⟩
        rw [List.mem_map]
        rintro ⟨kv, hkv, e⟩
        obtain ⟨m, hm, e'⟩ := hk kv hkv
        rw [e] at e'
        cases e'
        exact hn hm
      · rcases List.mem_cons.1 hkv with rfl | hkv
        · exact ⟨n, List.mem_cons_self, rfl⟩
        · obtain ⟨m, hm, e⟩ := hk kv hkv
          exact ⟨m, List.mem_cons_of_mem _ hm, e⟩
      · rw [PDict.get?]
        rcases List.mem_cons.1 hm with rfl | hm'
        · rw [if_pos rfl, hf]
        · rw [if_neg]
          · exact hg m hm'
          · intro e
            cases e
            exact hn hm'

/-- Showing the parameters of given series. -/
theorem compact_get {p : Params} {sps : List SParams} (hp : HasSeries p sps) (hne : sps ≠ [])
    (hm : ∀ sp ∈ sps, IsListValue sp.missingValue) :
    ∃ d, p.compactRepr = .ok d ∧ DistinctKeys d ∧ (∀ kv ∈ d, ∃ n, kv.1 = .known n) ∧
      ∀ n, d.get? n = shown n (sps.map fun sp => rawValue sp n) := by
  obtain ⟨sp, rest, rfl⟩ := List.exists_cons_of_ne_nil hne
  obtain ⟨d, h1, h2, h3, h4⟩ := compactFrom_get (p := p)
    (f := fun n => shown n ((sp :: rest).map fun sp => rawValue sp n)) Name.all (by decide) (by
    intro n _
    refine compactOne_shown (hp n) ?_
    rintro rfl
    exact hm sp List.mem_cons_self)
  exact ⟨d, h1, h2, fun kv hkv => (h3 kv hkv).imp fun _ h => h.2, fun n => h4 n (Name.mem_all n)⟩

/-! ### What is shown describes the series -/

/-- A list whose entries Python's equality tells apart is repeated if the entries are the same. -/
theorem repeated_iff {x : PVal} {xs : List PVal} (hx : ∀ y ∈ x :: xs, y.pyEq x = true ↔ y = x) :
    isRepeated (.list (x :: xs)) = true ↔ ∀ y ∈ x :: xs, y = x := by
  rw [isRepeated, List.all_eq_true]
  exact ⟨fun h y hy => (hx y hy).1 (h y hy), fun h y hy => (hx y hy).2 (h y hy)⟩

section
variable {ps ts : List Pos} {sps : List SParams} {d : PDict}

theorem repeated_raw {sp : SParams} {rest : List SParams} {n : Name} (hn : n ≠ .missingValue) :
    isRepeated (.list ((sp :: rest).map fun sp => rawValue sp n)) = true ↔
      ∀ q ∈ sp :: rest, rawValue q n = rawValue sp n := by
  rw [List.map_cons, repeated_iff]
  · rw [← List.map_cons (f := fun sp => rawValue sp n)]
    simp only [List.mem_map, forall_exists_index, and_imp, forall_apply_eq_imp_iff₂]
  · rw [← List.map_cons (f := fun sp => rawValue sp n)]
    simp only [List.mem_map, forall_exists_index, and_imp, forall_apply_eq_imp_iff₂]
    exact fun a _ => pyEq_raw a sp hn

/-- What is shown, if something is, gives each series its value. -/
theorem shown_gives {n : Name} (hn : n ≠ .missingValue) (hne : sps ≠ [])
    (hl : ∀ sp ∈ sps, (∀ q ∈ sps, rawValue q n = rawValue sp n) → ¬ IsListValue (rawValue sp n)) {v : PVal}
    (hv : shown n (sps.map fun sp => rawValue sp n) = some v) :
    GivesEach v (sps.map fun sp => rawValue sp n) := by
  obtain ⟨sp, rest, rfl⟩ := List.exists_cons_of_ne_nil hne
  have hr := repeated_raw (sp := sp) (rest := rest) hn
  unfold shown at hv
  by_cases h : isRepeated (.list ((sp :: rest).map fun sp => rawValue sp n)) = true
  · rw [if_pos h] at hv
    have hall := hr.1 h
    have e : v = rawValue sp n := by
      simp only [List.map_cons] at hv
      split at hv
      · cases hv
      · split at hv
        · cases hv
        · exact (Option.some.inj hv).symm
    refine .inl ⟨?_, ?_⟩
    · rw [e]
      exact hl sp List.mem_cons_self hall
    · intro x hx
      obtain ⟨q, hq, rfl⟩ := List.mem_map.1 hx
      rw [e]
      exact hall q hq
  · rw [if_neg h] at hv
    exact .inr (.inr (Option.some.inj hv).symm)

theorem shown_some {n : Name} (hne : sps ≠ []) (ho : n ∉ optionalNames) (hu : n ∉ useDefault) :
    ∃ v, shown n (sps.map fun sp => rawValue sp n) = some v := by
  obtain ⟨sp, rest, rfl⟩ := List.exists_cons_of_ne_nil hne
  have ho' : optionalNames.contains n = false := by simpa using ho
  have hu' : useDefault.contains n = false := by simpa using hu
  unfold shown
  rw [ho', hu']
  split
  · exact ⟨_, rfl⟩
  · exact ⟨_, rfl⟩

/-- An optional parameter that is not shown is not used. -/
theorem shown_optional {n : Name} (hne : sps ≠ []) (hm : n ≠ .missingValue) (hu : n ∉ useDefault)
    (hv : shown n (sps.map fun sp => rawValue sp n) = none) : ∀ sp ∈ sps, rawValue sp n = .none := by
  obtain ⟨sp, rest, rfl⟩ := List.exists_cons_of_ne_nil hne
  have hu' : useDefault.contains n = false := by simpa using hu
  unfold shown at hv
  rw [hu'] at hv
  by_cases h : isRepeated (.list ((sp :: rest).map fun sp => rawValue sp n)) = true
  · rw [if_pos h] at hv
    have hall := (repeated_raw hm).1 h
    simp only [List.map_cons, Bool.false_and, Bool.false_eq_true, if_false] at hv
    split at hv
    · next h' =>
      have h1 := (Bool.and_eq_true _ _ ▸ h').2
      have e : rawValue sp n = .none := by
        cases hx : rawValue sp n <;> rw [hx] at h1 <;> simp [PVal.isNone] at h1
      intro q hq
      rw [hall q hq, e]
    · cases hv
  · rw [if_neg h] at hv
    cases hv

theorem upper_code {f : Str} (h : FreqCode f) : upper f = f := by
  unfold upper
  conv_rhs => rw [← List.map_id f]
  apply List.map_congr_left
  intro x hx
  have := h x hx
  simp only [List.mem_cons, List.not_mem_nil, or_false] at this
  rcases this with rfl | rfl | rfl | rfl | rfl | rfl <;> rfl

theorem code_means {f : Str} (h : FreqCode f) : FreqMeans f f := by
  refine .inr (.inr (.inr ?_))
  rw [upper_code h]
  have hY : 'Y' ∉ f := fun hy => absurd (h _ hy) (by decide)
  refine ⟨?_, ?_, ?_, rfl⟩ <;> · rintro rfl; exact hY (by decide)

theorem standsFor_names {qs : List Pos} (hp : Positive qs) (hne : qs ≠ []) : StandsFor (.list (names qs)) qs := by
  refine .inr ⟨qs.map fun q => coordStr q.1 q.2, qs.map fun q => [q], ?_, by simpa using hne, ?_, ?_⟩
  · simp [names]
  · rw [List.forall₂_map_left_iff, List.forall₂_map_right_iff, List.forall₂_same]
    intro q hq
    exact .inl ⟨q, (hp q hq).1, (hp q hq).2, upper_coordStr _ _, rfl⟩
  · clear hp hne
    induction qs with
    | nil => rfl
    | cons q qs ih => rw [List.map_cons, List.flatten_cons, ← ih]; rfl

theorem standsFor_name {q : Pos} (h1 : 1 ≤ q.1) (h2 : 1 ≤ q.2) : StandsFor (.str (coordStr q.1 q.2)) [q] :=
  .inl ⟨_, rfl, .inl ⟨q, h1, h2, upper_coordStr _ _, rfl⟩⟩

/-- Coordinates that are all the same, or shown one by one. -/
theorem shown_names {n : Name} {q : Pos} {qs : List Pos} (ho : n ∉ optionalNames) (hu : n ∉ useDefault)
    (hp : Positive (q :: qs)) :
    (shown n (names (q :: qs)) = some (.str (coordStr q.1 q.2)) ∧ ∀ q' ∈ q :: qs, q' = q) ∨
    shown n (names (q :: qs)) = some (.list (names (q :: qs))) := by
  have ho' : optionalNames.contains n = false := by simpa using ho
  have hu' : useDefault.contains n = false := by simpa using hu
  unfold shown
  rw [ho', hu']
  by_cases h : isRepeated (.list (names (q :: qs))) = true
  · left
    rw [if_pos h]
    refine ⟨rfl, fun q' hq' => ?_⟩
    unfold names at h
    rw [List.map_cons, isRepeated, List.all_eq_true] at h
    have := (pyEq_str _ _).1 (h (.str (coordStr q'.1 q'.2)) (by
      rw [← List.map_cons (f := fun p : Pos => PVal.str (coordStr p.1 p.2))]
      exact List.mem_map.2 ⟨q', hq', rfl⟩))
    obtain ⟨e1, e2⟩ := coordStr_inj (hp q' hq').1 (hp q' hq').2 (hp q List.mem_cons_self).1
      (hp q List.mem_cons_self).2 (PVal.str.inj this)
    exact Prod.ext e1 e2
  · right
    rw [if_neg h]

theorem default_texts : ∃ ms : List (Option Str), defaultMissingValue = .list (ms.map textOrNone) :=
  ⟨[none, some c!"-", some c!"...", some c!".", some c!"/", some c!"///", some [], some c!"s.d.", some c!"s/d",
    some c!"n,d,", some c!"s.d", some c!" "], rfl⟩

/-- What is shown of the missing value markers. -/
theorem markers_shown (hne : sps ≠ [])
    (hm : ∀ sp ∈ sps, ∃ ms : List (Option Str), sp.missingValue = .list (ms.map fun m => m.elim .none .str))
    (hg : d.get? .missingValue = shown .missingValue (sps.map fun sp => rawValue sp .missingValue)) :
    (∃ v, d.get? .missingValue = some v ∧ GivesMarkers v (sps.map (·.missingValue))) ∨
      (Missing d .missingValue ∧ ∀ sp ∈ sps, sp.missingValue = defaultMissingValue) := by
  obtain ⟨sp, rest, rfl⟩ := List.exists_cons_of_ne_nil hne
  have hex : ∀ a ∈ sp :: rest, ∀ b ∈ sp :: rest,
      (a.missingValue.pyEq b.missingValue = true ↔ a.missingValue = b.missingValue) := by
    intro a ha b hb
    obtain ⟨as, ea⟩ := hm a ha
    obtain ⟨bs, eb⟩ := hm b hb
    rw [ea, eb, PVal.pyEq]
    refine (pyEqList_texts as bs).trans ?_
    simp only [PVal.list.injEq]
    exact Iff.rfl
  unfold shown at hg
  by_cases hr : isRepeated (.list ((sp :: rest).map fun sp => rawValue sp .missingValue)) = true
  · rw [if_pos hr] at hg
    have hsame : ∀ q ∈ sp :: rest, q.missingValue = sp.missingValue := by
      rw [List.map_cons, repeated_iff] at hr
      · intro q hq
        refine hr _ ?_
        rw [← List.map_cons (f := fun sp => rawValue sp .missingValue)]
        exact List.mem_map.2 ⟨q, hq, rfl⟩
      · rw [← List.map_cons (f := fun sp => rawValue sp .missingValue)]
        intro y hy
        obtain ⟨q, hq, rfl⟩ := List.mem_map.1 hy
        exact hex q hq sp List.mem_cons_self
    obtain ⟨xs, exs⟩ := hm sp List.mem_cons_self
    simp only [List.map_cons] at hg
    split at hg
    · next hx =>
      exact absurd (Bool.and_eq_true _ _ ▸ hx).1 (by decide)
    · split at hg
      · next hx =>
        refine .inr ⟨.inl hg, fun q hq => ?_⟩
        have h0 : defaultMissingValue.pyEq sp.missingValue = true := (Bool.and_eq_true _ _ ▸ hx).2
        obtain ⟨ms, ems⟩ := default_texts
        rw [ems, exs, PVal.pyEq] at h0
        have := (pyEqList_texts ms xs).1 h0
        rw [hsame q hq, exs, ems, this]
        rfl
      · refine .inl ⟨_, hg, .inr (.inl ⟨_, exs, ?_, ?_⟩)⟩
        · intro x r hx
          cases xs with
          | nil => cases hx
          | cons m ms =>
            rw [List.map_cons] at hx
            rw [← (List.cons.inj hx).1]
            cases m <;> simp [IsListValue]
        · intro m hm'
          obtain ⟨q, hq, rfl⟩ := List.mem_map.1 hm'
          rw [hsame q hq, exs]
  · rw [if_neg hr] at hg
    refine .inl ⟨_, hg, .inr (.inr ⟨rfl, ?_⟩)⟩
    intro m hm'
    obtain ⟨q, hq, rfl⟩ := List.mem_map.1 hm'
    obtain ⟨xs, exs⟩ := hm q hq
    exact ⟨_, exs⟩

theorem Spec.Compactable.describes (h : Compactable ps ts sps) (hdist : DistinctKeys d)
    (hk : ∀ kv ∈ d, ∃ n, kv.1 = .known n)
    (hg : ∀ n, d.get? n = shown n (sps.map fun sp => rawValue sp n)) :
    ∃ ts', Describes d ps ts' sps := by
  have hne := h.nonempty
  have hraw : sps.map (fun sp => rawValue sp .headersCoord) = names ps := by
    have := congrArg (List.map PVal.str) h.headerCells
    simpa [List.map_map, names, Function.comp_def, rawValue] using this
  have hsize : ps.length = sps.length := by
    have := congrArg List.length h.headerCells
    simpa using this.symm
  have hsize' : ts.length = sps.length := by
    have := congrArg List.length h.timeCells
    simpa using this.symm
  have hpne : ps ≠ [] := by
    rintro rfl
    exact hne (List.length_eq_zero_iff.1 hsize.symm)
  have htne : ts ≠ [] := by
    rintro rfl
    exact hne (List.length_eq_zero_iff.1 hsize'.symm)
  have hrawt : sps.map (fun sp => rawValue sp .timeHeaderCoord) = names ts := by
    have := congrArg (List.map fun x : TimeHeader => match x with
      | .single c => PVal.str c
      | .multi cs => PVal.list (cs.map .str)) h.timeCells
    rw [List.map_map, List.map_map] at this
    exact this
  have hgiv : ∀ {n : Name}, n ≠ .missingValue →
      (∀ sp ∈ sps, (∀ q ∈ sps, rawValue q n = rawValue sp n) → ¬ IsListValue (rawValue sp n)) →
      ∀ {v}, d.get? n = some v → GivesParam d n sps := by
    intro n hn hl v hv
    exact ⟨v, hv, shown_gives hn hne hl ((hg n).symm.trans hv)⟩
  have hall : ∀ {n : Name}, n ∉ optionalNames → n ∉ useDefault →
      (∀ sp : SParams, ¬ IsListValue (rawValue sp n)) → GivesParam d n sps := by
    intro n ho hu hl
    obtain ⟨v, hv⟩ := shown_some (sps := sps) hne ho hu
    exact hgiv (by rintro rfl; exact hu (by decide)) (fun sp _ _ => hl sp) ((hg n).trans hv)
  obtain ⟨q, qs, rfl⟩ := List.exists_cons_of_ne_nil hpne
  obtain ⟨t, us, rfl⟩ := List.exists_cons_of_ne_nil htne
  have hheaders : ∃ v, d.get? .headersCoord = some v ∧ StandsFor v (q :: qs) := by
    have e := hg .headersCoord
    rw [hraw] at e
    rcases shown_names (n := .headersCoord) (by decide) (by decide) h.positive with ⟨e', hsame⟩ | e'
    · refine ⟨_, e.trans e', ?_⟩
      have : qs = [] := by
        cases qs with
        | nil => rfl
        | cons q' qs =>
          have hq' := hsame q' (by simp)
          have := h.different
          rw [hq'] at this
          simp at this
      rw [this]
      exact standsFor_name (h.positive q (by simp)).1 (h.positive q (by simp)).2
    · exact ⟨_, e.trans e', standsFor_names h.positive (by simp)⟩
  have htimes : ∃ ts', (∃ v, d.get? .timeHeaderCoord = some v ∧ StandsFor v ts') ∧ Positive ts' ∧
      ((∃ t, ts' = [t] ∧ ∀ sp ∈ sps, sp.timeHeader = .single (coordStr t.1 t.2)) ∨
        (sps.map (·.timeHeader) = ts'.map (fun t => .single (coordStr t.1 t.2)) ∧ SeparateTimes ts')) := by
    have e := hg .timeHeaderCoord
    rw [hrawt] at e
    rcases shown_names (n := .timeHeaderCoord) (by decide) (by decide) h.timesPositive with ⟨e', hsame⟩ | e'
    · refine ⟨[t], ⟨_, e.trans e', standsFor_name (h.timesPositive t (by simp)).1 (h.timesPositive t (by simp)).2⟩,
        ?_, .inl ⟨t, rfl, ?_⟩⟩
      · intro x hx
        exact h.timesPositive x (List.mem_cons.2 (.inl (List.mem_singleton.1 hx)))
      · intro sp hsp
        have hm : sp.timeHeader ∈ sps.map (·.timeHeader) := List.mem_map.2 ⟨sp, hsp, rfl⟩
        rw [h.timeCells] at hm
        obtain ⟨t', ht', e''⟩ := List.mem_map.1 hm
        rw [← e'', hsame t' ht']
    · exact ⟨_, ⟨_, e.trans e', standsFor_names h.timesPositive (by simp)⟩, h.timesPositive,
        .inr ⟨h.timeCells, h.separate⟩⟩
  obtain ⟨ts', ht1, ht2, ht3⟩ := htimes
  have halign : d.get? .alignment ≠ none := by
    obtain ⟨v, hv⟩ := shown_some (sps := sps) (n := .alignment) hne (by decide) (by decide)
    rw [hg, hv]
    simp
  have hal : GivesParam d .alignment sps := hall (by decide) (by decide) fun sp => by
    cases hx : sp.alignment <;> simp [rawValue, hx, IsListValue]
  have hsameal : ∀ s, d.get? .alignment = some (.str s) → ∀ sp ∈ sps, rawValue sp .alignment = .str s := by
    intro s hs sp hsp
    obtain ⟨v, hv, hgv⟩ := hal
    rw [hs] at hv
    cases hv
    have hm : rawValue sp .alignment ∈ sps.map fun sp => rawValue sp .alignment := List.mem_map.2 ⟨sp, hsp, rfl⟩
    rcases hgv with ⟨_, hx⟩ | ⟨x, hx, _⟩ | hx
    · exact hx _ hm
    · cases hx
    · cases hx
  refine ⟨ts', ⟨hdist, hk, hne, hheaders, h.positive, h.headerCells, ht1, ht2, ht3, ?_, ?_, ?_, ?_, ?_, ?_, ?_, ?_,
    ?_, ?_, ?_⟩⟩
  · exact hall (by decide) (by decide) fun sp => by simp [rawValue, IsListValue]
  · obtain ⟨v, hv, hgv⟩ : GivesParam d .frequency sps :=
      hall (by decide) (by decide) fun sp => by simp [rawValue, IsListValue]
    refine ⟨v, sps.map (·.frequency), hv, ?_, ?_⟩
    · rw [List.map_map]
      exact hgv
    · rw [List.forall₂_map_left_iff, List.forall₂_same]
      exact fun sp hsp => ⟨code_means (h.frequency sp hsp), h.frequency sp hsp⟩
  · intro n hn
    simp only [List.mem_cons, List.not_mem_nil, or_false] at hn
    rcases hn with rfl | rfl | rfl | rfl <;>
      exact hall (by decide) (by decide) fun sp => by simp [rawValue, IsListValue]
  · intro n hn
    cases hv : d.get? n with
    | none =>
      refine .inr ⟨.inl hv, ?_⟩
      rw [hg] at hv
      simp only [List.mem_cons, List.not_mem_nil, or_false] at hn
      rcases hn with rfl | rfl | rfl <;> exact shown_optional hne (by decide) (by decide) hv
    | some v =>
      left
      simp only [List.mem_cons, List.not_mem_nil, or_false] at hn
      rcases hn with rfl | rfl | rfl
      · exact hgiv (by decide) (fun sp _ _ => by cases hx : sp.seriesName <;> simp [rawValue, hx, IsListValue]) hv
      · exact hgiv (by decide) (fun sp _ _ => by cases hx : sp.dataEnds <;> simp [rawValue, hx, IsListValue]) hv
      · refine hgiv (by decide) (fun sp hsp hsame => ?_) hv
        have hsame' : ∀ q ∈ sps, q.composedHeaders = sp.composedHeaders := by
          intro q hq
          have := hsame q hq
          cases hx : q.composedHeaders <;> cases hy : sp.composedHeaders <;>
            simp only [rawValue, hx, hy, Option.elim, reduceCtorEq, PVal.list.injEq] at this ⊢
          rw [List.map_inj_right (fun _ _ => PVal.str.inj)] at this
          rw [this]
        rcases h.composed with hnone | ⟨a, ha, b, hb, hab⟩
        · simp [rawValue, hnone sp hsp, IsListValue]
        · exact absurd ((hsame' a ha).trans (hsame' b hb).symm) hab
  · refine ⟨.inl ?_, h.context⟩
    rw [hg]
    obtain ⟨sp, rest, rfl⟩ := List.exists_cons_of_ne_nil hne
    have hc : ∀ q ∈ sp :: rest, rawValue q .context = .none := fun q hq => by
      simp [rawValue, h.context q hq]
    unfold shown
    rw [if_pos ((repeated_raw (by decide)).2 fun q hq => (hc q hq).trans (hc sp List.mem_cons_self).symm)]
    simp only [List.map_cons, hc sp List.mem_cons_self]
    rfl
  · refine ⟨.inl ?_, h.multicolumn⟩
    exact hall (by decide) (by decide) fun sp => by simp [rawValue, IsListValue]
  · refine ⟨?_, h.timeAlignment⟩
    cases hv : d.get? .timeAlignment with
    | some v =>
      exact .inl (hgiv (by decide) (fun sp _ _ => by simp [rawValue, IsListValue]) hv)
    | none =>
      refine .inr ⟨.inl hv, ?_⟩
      rw [hg] at hv
      obtain ⟨sp, rest, rfl⟩ := List.exists_cons_of_ne_nil hne
      unfold shown at hv
      by_cases hr : isRepeated (.list ((sp :: rest).map fun sp => rawValue sp .timeAlignment)) = true
      · rw [if_pos hr] at hv
        have hsame := (repeated_raw (by decide)).1 hr
        simp only [List.map_cons] at hv
        split at hv
        · next hx => simp [optionalNames] at hx
        · split at hv
          · next hx =>
            have h0 := (Bool.and_eq_true _ _ ▸ hx).2
            have h0' := (pyEq_int 0 sp.timeAlignment).1 h0
            intro q hq
            have h1 := PVal.int.inj (hsame q hq)
            have h2 := PVal.int.inj h0'
            rw [h1, h2]
          · cases hv
      · rw [if_neg hr] at hv
        cases hv
  · exact markers_shown hne h.markers (hg _)
  · exact .inl ⟨hal, h.aligned⟩
  · rintro (hv | ⟨hv, _⟩)
    · refine h.below fun sp hsp => ?_
      have := hsameal _ hv sp hsp
      cases hx : sp.alignment <;> simp [rawValue, hx] at this ⊢
    · exact absurd hv halign
  · rintro (hv | ⟨hv, _⟩)
    · refine h.beside fun sp hsp => ?_
      have := hsameal _ hv sp hsp
      cases hx : sp.alignment <;> simp [rawValue, hx] at this ⊢
    · exact absurd hv halign

/-- The compact representation of series that can be told from it builds the same parameters. -/
theorem compact_new {p : Params} (h : Compactable ps ts sps) (hp : HasSeries p sps) :
    ∃ d, p.compactRepr = .ok d ∧ Params.new (.dict d) = .ok p := by
  obtain ⟨d, h1, h2, h3, h4⟩ := compact_get hp h.nonempty fun sp hsp =>
    let ⟨_, hms⟩ := h.markers sp hsp
    ⟨_, hms⟩
  obtain ⟨ts', hd⟩ := h.describes h2 h3 h4
  obtain ⟨p', hp', hs⟩ := new_describes hd
  refine ⟨d, h1, ?_⟩
  rw [hp']
  congr 1
  funext n
  rw [hs n, hp n]

end

end Xls
