/-
The templates of Model/Templates.lean.
-/
import Verif.Model.Templates
import Verif.Lemmas.Build
import Verif.Spec.Templates

set_option autoImplicit false

namespace Xls

/-! ### Defaults supplied before the build -/

theorem put_put_comm {d : PDict} {k k' : Key} {v v' : PVal} (hne : k ≠ k') (hk : ∃ x, (k, x) ∈ d) :
    (d.put k' v').put k v = (d.put k v).put k' v' := by
  induction d with
  | nil => obtain ⟨x, hx⟩ := hk; cases hx
  | cons kv d ih =>
    obtain ⟨k0, v0⟩ := kv
    by_cases h1 : k0 = k
    · subst h1
      simp [PDict.put, hne]
    · by_cases h2 : k0 = k'
      · subst h2
        simp [PDict.put, h1]
      · simp only [PDict.put, if_neg h1, if_neg h2, List.cons.injEq, true_and]
        refine ih ?_
        obtain ⟨x, hx⟩ := hk
        rcases List.mem_cons.1 hx with h | h
        · cases h; exact absurd rfl h1
        · exact ⟨x, h⟩

theorem mem_of_get? {d : PDict} {n : Name} {v : PVal} (h : d.get? n = some v) : (Key.known n, v) ∈ d := by
  induction d with
  | nil => cases h
  | cons kv d ih =>
    obtain ⟨k, v'⟩ := kv
    unfold PDict.get? at h
    split at h
    · next hk => cases h; rw [hk]; exact List.mem_cons_self ..
    · exact List.mem_cons_of_mem _ (ih h)

theorem checkHasCritical_congr {d d' : PDict} : ∀ {ns : List Name}, (∀ n ∈ ns, d.get? n = d'.get? n) →
    checkHasCritical d ns = checkHasCritical d' ns
  | [], _ => rfl
  | n :: ns, h => by
    unfold checkHasCritical
    rw [h n (by simp), checkHasCritical_congr fun m hm => h m (List.mem_cons_of_mem _ hm)]

theorem validate_put {n : Name} {v : PVal} (hv : validateParam (.known n) v = .ok ()) : ∀ {d : PDict},
    d.absent n = true → validateParams (d.put (.known n) v) = validateParams d
  | [], _ => by
    show validateParams [(Key.known n, v)] = _
    simp only [validateParams, hv]
  | (k, w) :: d, ha => by
    unfold PDict.put
    split
    · next hk =>
      subst hk
      have hw : w.isNone = true := by simpa [PDict.absent, PDict.get?] using ha
      have hw : w = .none := by cases w <;> first | rfl | cases hw
      subst hw
      conv => lhs; unfold validateParams
      conv => rhs; unfold validateParams
      rw [hv]
      rfl
    · next hk =>
      have ha' : PDict.absent d n = true := by
        unfold PDict.absent at ha ⊢
        unfold PDict.get? at ha
        rw [if_neg hk] at ha
        exact ha
      conv => lhs; unfold validateParams
      conv => rhs; unfold validateParams
      rw [validate_put hv ha']

theorem absent_put_other {d : PDict} {n m : Name} {v : PVal} (h : m ≠ n) :
    (d.put (.known n) v).absent m = d.absent m := by
  unfold PDict.absent
  rw [PDict.get?_put_other d v (Ne.symm h)]

theorem absent_put_self {d : PDict} {n : Name} {v : PVal} (h : v.isNone = false) :
    (d.put (.known n) v).absent n = false := by
  unfold PDict.absent
  rw [PDict.get?_put_self]
  exact h

/-- The third step of the build as two supplies. -/
theorem missingsToDefault_supply (d : PDict) :
    missingsToDefault d = (d.supply .timeAlignment (.int 0)).supply .missingValue defaultMissingValue := by
  unfold missingsToDefault PDict.supply
  have h1 : hasNone (validValues .timeAlignment) = false := rfl
  have h2 : hasNone (validValues .missingValue) = false := rfl
  simp only [useDefault, List.foldl_cons, List.foldl_nil, h1, h2, Bool.not_false, Bool.and_true, defaultValue]
  cases hA : PDict.absent d .timeAlignment <;> cases hB : PDict.absent d .missingValue <;>
    simp [hB, absent_put_other]

theorem supply_supplied {d : PDict} {n : Name} {v w : PVal} (h : v.isNone = false) :
    (d.supply n v).supply n w = d.supply n v := by
  unfold PDict.supply
  split
  · rw [absent_put_self h]; rfl
  · rfl

/-- Supplying a valid default that the build would supply anyway. -/
theorem buildCurated_supply {d : PDict} {n : Name} {v : PVal} (hn : n ∉ critical)
    (hv : validateParam (.known n) v = .ok ()) (hm : ∀ f, d.absent n = true →
      missingsToDefault ((d.put (.known .frequency) f).put (.known n) v) =
        missingsToDefault (d.put (.known .frequency) f)) :
    buildCurated (d.supply n v) = buildCurated d := by
  unfold PDict.supply
  split
  · next ha =>
    have hnf : n ≠ .frequency := fun h => hn (by rw [h]; decide)
    have hc : checkHasCritical (d.put (.known n) v) critical = checkHasCritical d critical :=
      checkHasCritical_congr fun m hm' => PDict.get?_put_other d v fun e => hn (e ▸ hm')
    have hg : (d.put (.known n) v).get .frequency = d.get .frequency := by
      unfold PDict.get
      rw [PDict.get?_put_other d v hnf]
    unfold buildCurated
    rw [hc, hg]
    cases checkHasCritical d critical with
    | error e => rfl
    | ok _ =>
      cases hf : d.get .frequency with
      | error e => rfl
      | ok f =>
        have hmem : ∃ x, (Key.known .frequency, x) ∈ d := by
          unfold PDict.get at hf
          cases hx : d.get? .frequency with
          | none => rw [hx] at hf; cases hf
          | some x => exact ⟨x, mem_of_get? hx⟩
        simp only [bind, Except.bind]
        rcases curateFreq f with e | f'
        · rfl
        ·
          have ha' : (d.put (.known .frequency) f').absent n = true := by
            rw [absent_put_other hnf]; exact ha
          dsimp only
          rw [put_put_comm (k := .known .frequency) (k' := .known n) (fun e => hnf (by cases e; rfl)) hmem, validate_put hv ha', hm _ ha]
  · rfl

theorem newIn_initial (d : PDict) : Params.newIn .initial d = Params.new (.dict d) := by
  unfold Params.newIn Params.new
  dsimp only
  split
  · rfl
  · have hm : ClassLists.initial.markers = _ := rfl
    have key : buildCurated ((d.supply .timeAlignment (.int 0)).supply .missingValue
        (.list ClassLists.initial.markers)) = buildCurated d := by
      rw [buildCurated_supply (by decide) (by rfl), buildCurated_supply (by decide) (by rfl)]
      · intro f hx
        rw [missingsToDefault_supply, missingsToDefault_supply]
        congr 1
        have hx' : (d.put (.known .frequency) f).absent .timeAlignment = true := by
          rw [absent_put_other (by decide)]; exact hx
        unfold PDict.supply
        rw [absent_put_self rfl, if_pos hx']
        rfl
      · intro f hx
        have hx' : ((d.supply .timeAlignment (.int 0)).put (.known .frequency) f).absent .missingValue = true := by
          rw [absent_put_other (by decide)]; exact hx
        have hA : ((d.supply .timeAlignment (.int 0)).put (.known .frequency) f).absent .timeAlignment = false := by
          rw [absent_put_other (by decide)]
          unfold PDict.supply
          split
          · exact absent_put_self rfl
          · next h => exact Bool.eq_false_iff.2 h
        generalize (d.supply .timeAlignment (.int 0)).put (.known .frequency) f = x at hx' hA
        rw [missingsToDefault_supply, missingsToDefault_supply]
        unfold PDict.supply
        rw [absent_put_other (by decide), hA]
        simp only [Bool.false_eq_true, if_false]
        rw [absent_put_self rfl, hx']
        rfl
    unfold Params.ofDict build
    rw [key]

/-- A dictionary that has both defaults already. -/
theorem newIn_given {σ : ClassLists} {d : PDict} (h1 : d.absent .timeAlignment = false)
    (h2 : d.absent .missingValue = false) : Params.newIn σ d = Params.new (.dict d) := by
  unfold Params.newIn Params.new PDict.supply
  rw [h1]
  simp only [Bool.false_eq_true, if_false]
  rw [h2]
  rfl

/-! ### Templates filled in -/

open Spec

theorem assign_dict (σ : ClassLists) (k : Key) (v : PVal) : ∀ t : Template,
    (t.assign k v).dict σ = (t.dict σ).put k v
  | [] => rfl
  | (k', s) :: t => by
    unfold Template.assign
    show _ = PDict.put ((k', s.value σ) :: Template.dict σ t) k v
    unfold PDict.put
    split
    · rfl
    · show (k', s.value σ) :: Template.dict σ (Template.assign t k v) = _
      rw [assign_dict σ k v t]

theorem known_put {d : PDict} {n : Name} {v : PVal} (h : ∀ kv ∈ d, ∃ m, kv.1 = .known m) :
    ∀ kv ∈ d.put (.known n) v, ∃ m, kv.1 = .known m := by
  intro kv hkv
  rcases (PDict.keys_put d (.known n) v kv.1).1 (List.mem_map_of_mem hkv) with h1 | h1
  · obtain ⟨kv', hm, he⟩ := List.mem_map.1 h1
    obtain ⟨m, hm'⟩ := h kv' hm
    exact ⟨m, he ▸ hm'⟩
  · exact ⟨n, h1⟩

/-- What filling in leaves as it is. -/
theorem fills_in {σ σ' : ClassLists} : ∀ {es : List Edit} {t t' : Template}, FillsIn es →
    applyEdits σ t es = .ok (σ', t') →
    σ' = σ ∧ (∀ n, n ∉ critical → (t'.dict σ).get? n = (t.dict σ).get? n) ∧
    (DistinctKeys (t.dict σ) → DistinctKeys (t'.dict σ)) ∧
    ((∀ kv ∈ t.dict σ, ∃ m, kv.1 = .known m) → ∀ kv ∈ t'.dict σ, ∃ m, kv.1 = .known m)
  | [], t, t', _, h => by
    injection h with h
    injection h with h1 h2
    subst h1 h2
    exact ⟨rfl, fun _ _ => rfl, id, id⟩
  | e :: es, t, t', hf, h => by
    obtain ⟨n, v, hn, rfl⟩ := hf e (by simp)
    obtain ⟨h1, h2, h3, h4⟩ := fills_in (es := es) (t := t.assign (.known n) v) (t' := t')
      (fun e he => hf e (List.mem_cons_of_mem _ he)) h
    rw [assign_dict] at h2 h3 h4
    refine ⟨h1, fun m hm => ?_, fun hd => h3 (PDict.distinct_put hd _ _), fun hk => h4 (known_put hk)⟩
    rw [h2 m hm, PDict.get?_put_other _ _ (fun hc => hm (by rw [← hc]; exact hn))]

theorem slot_assign (k k' : Key) (v : PVal) : ∀ t : Template,
    (t.assign k v).slot? k' = if k = k' then some (.own v) else t.slot? k'
  | [] => by
    unfold Template.assign Template.slot?
    rfl
  | (k0, s) :: t => by
    unfold Template.assign
    by_cases h0 : k0 = k
    · subst h0
      rw [if_pos rfl]
      show (if k0 = k' then _ else _) = _
      by_cases h1 : k0 = k'
      · rw [if_pos h1, if_pos h1]
      · rw [if_neg h1, if_neg h1]
        show _ = (if k0 = k' then _ else _)
        rw [if_neg h1]
    · rw [if_neg h0]
      show (if k0 = k' then some s else Template.slot? (Template.assign t k v) k') =
        if k = k' then _ else (if k0 = k' then some s else Template.slot? t k')
      rw [slot_assign k k' v t]
      by_cases h1 : k0 = k'
      · rw [if_pos h1, if_pos h1, if_neg (fun hc => h0 (h1.trans hc.symm))]
      · rw [if_neg h1, if_neg h1]

/-- Changes of one's own lists leave the lists of the class alone. -/
theorem keeps_to_own {σ σ' : ClassLists} : ∀ {es : List Edit} {own : List Key} {t t' : Template},
    (∀ k ∈ own, ∃ v, t.slot? k = some (.own v)) → KeepsToOwn own es → applyEdits σ t es = .ok (σ', t') → σ' = σ
  | [], _, t, t', _, _, h => by
    injection h with h
    injection h with h1 h2
    exact h1.symm
  | .assign k v :: es, own, t, t', ho, hk, h => by
    refine keeps_to_own (es := es) (own := k :: own) (t := t.assign k v) ?_ hk h
    intro k' hk'
    rw [slot_assign]
    split
    · exact ⟨v, rfl⟩
    · next hne =>
      rcases List.mem_cons.1 hk' with rfl | hm
      · exact absurd rfl hne
      · exact ho k' hm
  | .append k v :: es, own, t, t', ho, hk, h => by
    obtain ⟨w, hw⟩ := ho k hk.1
    unfold applyEdits Edit.apply at h
    dsimp only at h
    rw [hw] at h
    cases w with
    | list vs =>
      dsimp only at h
      refine keeps_to_own (es := es) (own := own) (t := t.assign k (.list (vs ++ [v]))) ?_ hk.2 h
      intro k' hk'
      rw [slot_assign]
      split
      · exact ⟨_, rfl⟩
      · exact ho k' hk'
    | _ => cases h

theorem gives_usual {d : PDict} {n : Name} {ms : List PVal} {ps : List Pos} {t : Pos} {k : Int} {f : Str} {v : PVal}
    (hv : d.get? n = some v) (hl : ¬ IsListValue v) (h : ∀ p, rawValue (usualSeries ms t k f p) n = v) :
    GivesParam d n (ps.map (usualSeries ms t k f)) := by
  refine ⟨v, hv, .inl ⟨hl, fun x hx => ?_⟩⟩
  rw [List.map_map] at hx
  obtain ⟨p, _, rfl⟩ := List.mem_map.1 hx
  exact h p

theorem not_list_bool (b : Bool) : ¬ IsListValue (.bool b) := by rintro ⟨_, h⟩; cases h
theorem not_list_int (i : Int) : ¬ IsListValue (.int i) := by rintro ⟨_, h⟩; cases h
theorem not_list_str (s : Str) : ¬ IsListValue (.str s) := by rintro ⟨_, h⟩; cases h

/-- A filled-in complete template describes the usual series. -/
theorem filled_describes {d : PDict} {σ : ClassLists} {ps : List Pos} {t : Pos} {k : Int} {f : Str}
    (hσ : ∀ x rest, σ.markers = x :: rest → ¬ IsListValue x)
    (hdk : DistinctKeys d) (hkn : ∀ kv ∈ d, ∃ m, kv.1 = .known m) (hsay : CriticalSay d ps t k f)
    (hs : ∀ n, n ∉ critical → d.get? n = (completeTemplate.dict σ).get? n) :
    Describes d ps [t] (ps.map (usualSeries σ.markers t k f)) where
  distinct := hdk
  known := hkn
  nonempty := by simpa using hsay.nonempty
  headers := hsay.headers
  positive := hsay.positive
  headerCells := by rw [List.map_map]; rfl
  times := by
    obtain ⟨s, h1, h2⟩ := hsay.time
    exact ⟨_, h1, .inl ⟨s, rfl, h2⟩⟩
  timesPositive := hsay.timePositive
  timeCells := .inl ⟨t, rfl, List.forall_mem_map.2 fun _ _ => rfl⟩
  starts := gives_usual hsay.starts (not_list_int _) fun _ => rfl
  frequency := by
    obtain ⟨s, h1, h2, h3⟩ := hsay.frequency
    refine ⟨_, ps.map fun _ => s, h1, .inl ⟨not_list_str _, ?_⟩, ?_⟩
    · rw [List.map_map]
      exact List.forall_mem_map.2 fun _ _ => rfl
    · rw [List.forall₂_map_left_iff, List.forall₂_map_right_iff, List.forall₂_same]
      exact fun _ _ => ⟨h2, h3⟩
  switches := by
    intro n hn
    simp only [List.mem_cons, List.not_mem_nil, or_false] at hn
    rcases hn with rfl | rfl | rfl | rfl <;>
      exact gives_usual (hs _ (by decide)) (not_list_bool _) fun _ => rfl
  optional := by
    intro n hn
    simp only [List.mem_cons, List.not_mem_nil, or_false] at hn
    rcases hn with rfl | rfl | rfl <;>
      exact .inr ⟨.inr (hs _ (by decide)), List.forall_mem_map.2 fun _ _ => rfl⟩
  context := ⟨.inr (hs _ (by decide)), List.forall_mem_map.2 fun _ _ => rfl⟩
  multicolumn := ⟨.inl (gives_usual (hs _ (by decide)) (not_list_bool _) fun _ => rfl),
    List.forall_mem_map.2 fun _ _ => rfl⟩
  timeAlignment := ⟨.inl (gives_usual (hs _ (by decide)) (not_list_int _) fun _ => rfl),
    List.forall_mem_map.2 fun _ _ => .inr (.inl rfl)⟩
  markers := .inl ⟨_, hs _ (by decide), .inr (.inl ⟨σ.markers, rfl, hσ, by
    rw [List.map_map]
    exact List.forall_mem_map.2 fun _ _ => rfl⟩)⟩
  alignment := .inl ⟨gives_usual (hs _ (by decide)) (not_list_str _) fun _ => rfl,
    List.forall_mem_map.2 fun _ _ h => by cases h⟩
  below := by
    intro _
    rw [List.forall₂_map_right_iff, List.forall₂_same]
    exact hsay.below
  beside := by
    intro h
    rw [hs _ (by decide)] at h
    rcases h with h | ⟨h, _⟩ <;> cases h

end Xls
