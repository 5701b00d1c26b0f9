/-
Series that differ in their names: cleaning and reading are the same.
-/
import Verif.Spec.OtherNames
import Verif.Lemmas.Joined
import Verif.Lemmas.Numbers3
import Verif.Props.Retitled

set_option autoImplicit false

namespace Xls

open Spec

variable {ext : Ext}

theorem OtherName.dates {x y : SParams} (h : OtherName x y) : SameDates x y := by
  unfold OtherName at h
  unfold SameDates
  rw [h]

theorem OtherName.fill {x y : SParams} (h : OtherName x y) (e : Option Int) :
    OtherName { x with dataEnds := e } { y with dataEnds := e } := by
  unfold OtherName at h ⊢
  rw [h]

theorem OtherName.ending {x y : SParams} (h : OtherName x y) (stop : Int) :
    OtherName (endingAt stop x) (endingAt stop y) := by
  unfold OtherName at h
  rw [h]
  unfold endingAt OtherName
  dsimp only
  split
  · split <;> rfl
  · rfl

theorem OtherName.raw {x y : SParams} (h : OtherName x y) {n : Name} (h1 : n ≠ .seriesNames)
    (h2 : n ≠ .composedHeadersCoord) (h3 : n ≠ .context) : rawValue y n = rawValue x n := by
  unfold OtherName at h
  rw [h]
  cases n <;> first | rfl | exact absurd rfl h1 | exact absurd rfl h2 | exact absurd rfl h3

theorem names_get {xs ys : List SParams} (h : List.Forall₂ OtherName xs ys) (i : Nat) :
    (xs[i]? = none ∧ ys[i]? = none) ∨ ∃ x y, xs[i]? = some x ∧ ys[i]? = some y ∧ OtherName x y := by
  induction h generalizing i with
  | nil => exact .inl ⟨rfl, rfl⟩
  | cons hab _ ih =>
    cases i with
    | zero => exact .inr ⟨_, _, rfl, rfl, hab⟩
    | succ i => exact ih i

theorem names_raw {p q : Params} {xs ys : List SParams} (hp : HasSeries p xs) (hq : HasSeries q ys)
    (h : List.Forall₂ OtherName xs ys) {n : Name} (h1 : n ≠ .seriesNames) (h2 : n ≠ .composedHeadersCoord)
    (h3 : n ≠ .context) : q n = p n := by
  rw [hp, hq]
  have : ∀ {xs ys : List SParams}, List.Forall₂ OtherName xs ys →
      ys.map (fun sp => rawValue sp n) = xs.map fun sp => rawValue sp n := by
    intro xs ys h
    induction h with
    | nil => rfl
    | cons hab _ ih => rw [List.map_cons, List.map_cons, OtherName.raw hab h1 h2 h3, ih]
  rw [this h]

/-! ### Cleaning -/

/-- What cleaning gives for two lists of series: the same outcome and worksheet, and again such series. -/
def CleansAlike (P : SParams → Prop) (a b : Except Err Unit × Params × Sheet) : Prop :=
  b.1 = a.1 ∧ b.2.2 = a.2.2 ∧ ∃ xs ys, HasSeries a.2.1 xs ∧ HasSeries b.2.1 ys ∧ List.Forall₂ OtherName xs ys ∧
    (∀ x ∈ xs, P x) ∧ ∀ y ∈ ys, P y

theorem fill_endingAt {P : SParams → Prop} (hP : ∀ x e, P x → P { x with dataEnds := e }) {x : SParams} (stop : Int)
    (h : P x) : P (endingAt stop x) := by
  unfold endingAt
  split
  · split
    · exact hP _ _ h
    · exact h
  · exact hP _ _ h

theorem cleanSeries_names {P : SParams → Prop} (hP : ∀ x e, P x → P { x with dataEnds := e }) :
    ∀ {rest rest' pre pre' : List SParams} {p q : Params} (s : Sheet) (ends : List (Str × Int)),
    List.Forall₂ OtherName rest rest' → List.Forall₂ OtherName pre pre' → HasSeries p (pre ++ rest) →
    HasSeries q (pre' ++ rest') → (∀ x ∈ pre ++ rest, P x) → (∀ x ∈ pre' ++ rest', P x) →
    CleansAlike P (cleanSeries ext (List.range' pre.length rest.length) p s ends)
      (cleanSeries ext (List.range' pre.length rest.length) q s ends)
  | _, _, pre, pre', p, q, s, ends, .nil, hpre, hp, hq, h1, h2 =>
    ⟨rfl, rfl, _, _, hp, hq, List.rel_append hpre .nil, h1, h2⟩
  | x :: rest, y :: rest', pre, pre', p, q, s, ends, .cons hxy hr, hpre, hp, hq, h1, h2 => by
    have hall : List.Forall₂ OtherName (pre ++ x :: rest) (pre' ++ y :: rest') := List.rel_append hpre (.cons hxy hr)
    have hlen : pre'.length = pre.length := hpre.length_eq.symm
    have hi : (pre ++ x :: rest)[pre.length]? = some x := by simp
    have hj : (pre' ++ y :: rest')[pre.length]? = some y := by rw [← hlen]; simp
    have hsame : ∃ xs ys, HasSeries p xs ∧ HasSeries q ys ∧ List.Forall₂ OtherName xs ys ∧ (∀ x ∈ xs, P x) ∧
        ∀ y ∈ ys, P y := ⟨_, _, hp, hq, hall, h1, h2⟩
    rw [List.length_cons, List.range'_succ]
    unfold cleanSeries
    rw [names_raw hp hq hall (n := .timeHeaderCoord) (by decide) (by decide) (by decide)]
    cases hh : (Params.index (p .timeHeaderCoord) pre.length).bind PVal.asStr with
    | error e => exact ⟨rfl, rfl, hsame⟩
    | ok a =>
      dsimp only
      have hone : cleanOnce ext q s ends pre.length a = cleanOnce ext p s ends pre.length a := by
        unfold cleanOnce
        rw [typed_of_series hp hi, typed_of_series hq hj]
        dsimp only
        rw [cleanTimeIndex_same ext (OtherName.dates hxy)]
      rw [hone]
      rcases cleanOnce ext p s ends pre.length a with ⟨_ | ⟨stop, ends'⟩, u⟩
      · exact ⟨rfl, rfl, hsame⟩
      · dsimp only
        rw [index_of_series hp .dataEnds hi, index_of_series hq .dataEnds hj]
        dsimp only
        have h3 := setEnd_series stop hp
        have h4 := setEnd_series stop hq
        rw [hlen] at h4
        have := cleanSeries_names hP (rest := rest) (rest' := rest') (pre := pre ++ [endingAt stop x])
          (pre' := pre' ++ [endingAt stop y]) u ends' hr (List.rel_append hpre (.cons (OtherName.ending hxy stop) .nil))
          (by rw [List.append_assoc]; exact h3) (by rw [List.append_assoc]; exact h4)
          (by
            intro z hz
            simp only [List.mem_append, List.mem_singleton] at hz
            rcases hz with (hz | rfl) | hz
            · exact h1 z (by simp [hz])
            · exact fill_endingAt hP stop (h1 x (by simp))
            · exact h1 z (by simp [hz]))
          (by
            intro z hz
            simp only [List.mem_append, List.mem_singleton] at hz
            rcases hz with (hz | rfl) | hz
            · exact h2 z (by simp [hz])
            · exact fill_endingAt hP stop (h2 y (by simp))
            · exact h2 z (by simp [hz]))
        rw [List.length_append, List.length_singleton] at this
        exact this

theorem setItem_end {p : Params} {sps : List SParams} (hp : HasSeries p sps) (hne : sps ≠ []) (stop : Int) :
    ∃ p', p.setItem .dataEnds (.int stop) = .ok p' := by
  have hset : p.setItem .dataEnds (.int stop) =
      .ok (p.store .dataEnds (.list (List.replicate sps.length (.int stop)))) := by
    unfold Params.setItem
    dsimp only
    rw [if_neg (fun h => by cases h.1), if_neg (by decide)]
    unfold Params.setPlain
    rw [if_neg (by unfold Params.validParamList; simp), if_pos (show validParamValue (.int stop) (validValues .dataEnds) = true from rfl), num_of_series hp]
    unfold applyToAll
    dsimp only
    rw [applyGeneric_single (List.length_pos_iff.2 hne) rfl rfl]
  exact ⟨_, hset⟩

theorem cleanData_names {P : SParams → Prop} (hP : ∀ x e, P x → P { x with dataEnds := e }) {p q : Params}
    {xs ys : List SParams} (hp : HasSeries p xs) (hq : HasSeries q ys) (h : List.Forall₂ OtherName xs ys)
    (h1 : ∀ x ∈ xs, P x) (h2 : ∀ y ∈ ys, P y) (s : Sheet) :
    CleansAlike P (cleanData ext p s) (cleanData ext q s) := by
  have hsame : ∃ xs ys, HasSeries p xs ∧ HasSeries q ys ∧ List.Forall₂ OtherName xs ys ∧ (∀ x ∈ xs, P x) ∧
      ∀ y ∈ ys, P y := ⟨_, _, hp, hq, h, h1, h2⟩
  unfold cleanData
  rw [names_raw hp hq h (n := .timeMulticolumn) (by decide) (by decide) (by decide),
    names_raw hp hq h (n := .timeHeaderCoord) (by decide) (by decide) (by decide)]
  cases hm : Params.index (p .timeMulticolumn) 0 with
  | error e => exact ⟨rfl, rfl, hsame⟩
  | ok multi =>
    dsimp only
    split
    · cases h with
      | nil =>
        rw [hp .timeMulticolumn] at hm
        cases hm
      | @cons x y xs' ys' hxy hr =>
        unfold cleanMulti
        rw [typed_of_series hp (i := 0) (sp := x) rfl, typed_of_series hq (i := 0) (sp := y) rfl]
        dsimp only
        rw [cleanTimeIndex_same ext (OtherName.dates hxy), index_of_series hp .dataEnds (i := 0) (sp := x) rfl,
          index_of_series hq .dataEnds (i := 0) (sp := y) rfl, OtherName.raw hxy (n := .dataEnds) (by decide) (by decide) (by decide)]
        rcases cleanTimeIndex ext x s with ⟨_ | stop, u⟩
        · exact ⟨rfl, rfl, hsame⟩
        · dsimp only
          split
          · exact ⟨rfl, rfl, hsame⟩
          · obtain ⟨p', k1⟩ := setItem_end hp (by simp) stop
            obtain ⟨q', k2⟩ := setItem_end hq (by simp) stop
            rw [k1, k2]
            refine ⟨rfl, rfl, _, _, setItem_dataEnds hp (by simp) stop k1, setItem_dataEnds hq (by simp) stop k2, ?_, ?_, ?_⟩
            · rw [List.forall₂_map_left_iff, List.forall₂_map_right_iff]
              exact (List.Forall₂.cons hxy hr).imp fun a b h => OtherName.fill h _
            · intro z hz
              obtain ⟨w, hw, rfl⟩ := List.mem_map.1 hz
              exact hP _ _ (h1 w hw)
            · intro z hz
              obtain ⟨w, hw, rfl⟩ := List.mem_map.1 hz
              exact hP _ _ (h2 w hw)
    · rw [hp .timeHeaderCoord]
      unfold Params.len
      dsimp only
      rw [List.length_map, List.range_eq_range']
      exact cleanSeries_names hP (pre := []) (pre' := []) s [] h .nil hp hq h1 h2

/-! ### The used area -/

theorem cleanOnce_wider (p : Params) (s : Sheet) (ends : List (Str × Int)) (i : Nat) (a : Str) :
    Wider s (cleanOnce ext p s ends i a).2 := by
  unfold cleanOnce
  split
  · exact .refl _
  · split
    · exact .refl _
    next sp _ =>
      have := wider_clean ext sp s
      revert this
      rcases cleanTimeIndex ext sp s with ⟨_ | stop, u⟩
      · exact id
      · intro h
        dsimp only
        split <;> exact h

theorem cleanSeries_wider : ∀ (is : List Nat) (p : Params) (s : Sheet) (ends : List (Str × Int)),
    Wider s (cleanSeries ext is p s ends).2.2
  | [], _, _, _ => .refl _
  | i :: is, p, s, ends => by
    unfold cleanSeries
    split
    · exact .refl _
    next a _ =>
      have := cleanOnce_wider (ext := ext) p s ends i a
      revert this
      rcases cleanOnce ext p s ends i a with ⟨_ | ⟨stop, ends'⟩, u⟩
      · exact id
      · intro h
        dsimp only
        split
        · exact h
        · exact h.trans (cleanSeries_wider is _ _ _)

theorem cleanData_wider (p : Params) (s : Sheet) : Wider s (cleanData ext p s).2.2 := by
  unfold cleanData
  split
  · exact .refl _
  · split
    · unfold cleanMulti
      split
      · exact .refl _
      next sp _ =>
        have := wider_clean ext sp s
        revert this
        rcases cleanTimeIndex ext sp s with ⟨_ | stop, u⟩
        · exact id
        · intro h
          dsimp only
          split
          · exact h
          · split
            · exact h
            · split <;> exact h
    · split
      · exact .refl _
      · exact cleanSeries_wider _ _ _ _

/-- The cell is in the used area. -/
def Reached (s : Sheet) (rc : Int × Int) : Prop := rc.1 ≤ s.maxRow ∧ rc.2 ≤ s.maxCol

theorem reached_touch {s : Sheet} {rc : Int × Int} (h : Reached s rc) : s.touch rc.1 rc.2 = s := by
  obtain ⟨h1, h2⟩ := h
  obtain ⟨t, mr, mc, cs⟩ := s
  dsimp only at h1 h2
  unfold Sheet.touch
  dsimp only
  rw [Int.max_eq_left h1, Int.max_eq_left h2]

theorem touch_comm (s : Sheet) (a b : Int × Int) :
    (s.touch a.1 a.2).touch b.1 b.2 = (s.touch b.1 b.2).touch a.1 a.2 := by
  unfold Sheet.touch
  dsimp only
  congr 1 <;> omega

theorem reached_wider {s t : Sheet} {rc : Int × Int} (h : Reached s rc) (hw : Wider s t) : Reached t rc :=
  ⟨Int.le_trans h.1 hw.1, Int.le_trans h.2 hw.2⟩

theorem touchAll_known : ∀ (rest : List (Int × Int)) {s : Sheet} {rc : Int × Int}, (Reached s rc ∨ rc ∈ rest) →
    (s.touch rc.1 rc.2).touchAll rest = s.touchAll rest
  | [], s, rc, h => by
    rcases h with h | h
    · rw [reached_touch h]
    · cases h
  | b :: rest, s, rc, h => by
    show ((s.touch rc.1 rc.2).touch b.1 b.2).touchAll rest = (s.touch b.1 b.2).touchAll rest
    rw [touch_comm]
    refine touchAll_known rest ?_
    rcases h with h | h
    · exact .inl (reached_wider h (wider_touch s b.1 b.2))
    · rcases List.mem_cons.1 h with rfl | h
      · refine .inl ⟨?_, ?_⟩
        · exact Int.le_max_right _ _
        · exact Int.le_max_right _ _
      · exact .inr h

theorem touchAll_extra (rest : List (Int × Int)) : ∀ (l : List (Int × Int)) {s : Sheet},
    (∀ rc ∈ l, Reached s rc ∨ rc ∈ rest) → s.touchAll (l ++ rest) = s.touchAll rest
  | [], _, _ => rfl
  | b :: l, s, h => by
    show (s.touch b.1 b.2).touchAll (l ++ rest) = _
    rw [touchAll_extra rest l fun rc hrc => (h rc (by simp [hrc])).imp (fun k => reached_wider k (wider_touch s _ _)) id]
    exact touchAll_known rest (h b (by simp))

/-! ### Names and values -/

/-- The name can be made up on this worksheet. -/
structure NameOk (s : Sheet) (sp : SParams) : Prop where
  header : ∃ r c, coordOf sp.headerCoord = .ok (r, c)
  composed : Unnamed sp → ∀ a ∈ sp.composedHeaders.getD [], ∃ r c, coordOf a = .ok (r, c) ∧ HoldsText (s.cells r c) ∧
    Reached s (r, c)

theorem NameOk.grow {s t : Sheet} {sp : SParams} (h : NameOk s sp) (hc : t.cells = s.cells) (hw : Wider s t) :
    NameOk t sp := by
  refine ⟨h.header, fun hu a ha => ?_⟩
  obtain ⟨r, c, k1, k2, k3⟩ := h.composed hu a ha
  exact ⟨r, c, k1, by rw [hc]; exact k2, reached_wider k3 hw⟩

theorem composedParts_ok {s : Sheet} : ∀ (cs : List Str),
    (∀ a ∈ cs, ∃ r c, coordOf a = .ok (r, c) ∧ HoldsText (s.cells r c) ∧ Reached s (r, c)) →
    ∃ parts, composedParts ext s cs = .ok parts
  | [], _ => ⟨_, rfl⟩
  | a :: cs, h => by
    obtain ⟨r, c, k1, k2, -⟩ := h a (by simp)
    obtain ⟨parts, k3⟩ := composedParts_ok cs fun b hb => h b (by simp [hb])
    unfold composedParts cellAt
    rw [k1, k3]
    dsimp only
    cases hs : s.cells r c <;> rw [hs] at k2 <;> first | exact ⟨_, rfl⟩ | exact absurd k2 id

theorem getName_ok {s : Sheet} {sp : SParams} (h : NameOk s sp) : ∃ n, getName ext sp s = .ok n := by
  have key : Unnamed sp → ∃ parts, composedParts ext s (sp.composedHeaders.getD []) = .ok parts :=
    fun hu => composedParts_ok _ (h.composed hu)
  obtain ⟨r, c, hh⟩ := h.header
  unfold getName cellAt
  rw [hh]
  dsimp only
  cases hn : sp.seriesName with
  | none =>
    obtain ⟨parts, k⟩ := key (.inl hn)
    dsimp only
    rw [k]
    exact ⟨_, rfl⟩
  | some n =>
    cases n with
    | nil =>
      obtain ⟨parts, k⟩ := key (.inr hn)
      dsimp only
      rw [k]
      exact ⟨_, rfl⟩
    | cons a as => exact ⟨_, rfl⟩

theorem valuesLoop_names {x y : SParams} (h : OtherName x y) (s : Sheet) (hr hc : Int) : ∀ (is : List Int)
    (m : List (Str × List Num)) (last : Str), valuesLoop ext y s hr hc is m last = valuesLoop ext x s hr hc is m last
  | [], _, _ => rfl
  | i :: is, m, last => by
    have e1 : y.alignment = x.alignment := by rw [show y = _ from h]
    have e2 : ∀ v, handleValue ext y v = handleValue ext x v := fun v => by rw [show y = _ from h]; rfl
    have e3 : ∀ v, toBeAdded y s v i = toBeAdded x s v i := fun v => by rw [show y = _ from h]; rfl
    have e4 : y.frequency = x.frequency := by rw [show y = _ from h]
    unfold valuesLoop
    simp only [e1, e2, e3, e4, valuesLoop_names h s hr hc is]

theorem getValues_names {x y : SParams} (h : OtherName x y) (s : Sheet) : getValues ext y s = getValues ext x s := by
  have e := valuesLoop_names (ext := ext) h s
  have h' : y = _ := h
  obtain ⟨a1, a2, a3, a4, a5, a6, a7, a8, a9, a10, a11, a12, a13⟩ :
      y.alignment = x.alignment ∧ y.headerCoord = x.headerCoord ∧ y.dataEnds = x.dataEnds ∧
      y.dataStarts = x.dataStarts ∧ y.missings = x.missings ∧ y.missingValue = x.missingValue ∧
      y.frequency = x.frequency ∧ y.timeHeader = x.timeHeader ∧ (∀ a b c, timeCells y s a b c = timeCells x s a b c) ∧
      True ∧ True ∧ True ∧ True := by
    rw [h']
    exact ⟨rfl, rfl, rfl, rfl, rfl, rfl, rfl, rfl, fun _ _ _ => rfl, trivial, trivial, trivial, trivial⟩
  unfold getValues
  simp only [e, a1, a2, a3, a4, a5, a6, a7, a8, a9]

theorem touchAll_reads {x y : SParams} (h : OtherName x y) {s : Sheet} (hx : NameOk s x) (hy : NameOk s y) :
    s.touchAll (seriesReads ext y s) = s.touchAll (seriesReads ext x s) := by
  have e := valuesLoop_names (ext := ext) h s
  have h' : y = _ := h
  obtain ⟨a1, a2, a3, a4, a5, a6, a7, a8, a9, a10, a11⟩ :
      y.alignment = x.alignment ∧ y.headerCoord = x.headerCoord ∧ y.dataEnds = x.dataEnds ∧
      y.dataStarts = x.dataStarts ∧ y.missings = x.missings ∧ y.missingValue = x.missingValue ∧
      y.frequency = x.frequency ∧ y.timeHeader = x.timeHeader ∧ y.continuity = x.continuity ∧
      nonContHeader y = nonContHeader x ∧ y.timeAlignment = x.timeAlignment := by
    rw [h']
    exact ⟨rfl, rfl, rfl, rfl, rfl, rfl, rfl, rfl, rfl, rfl, rfl⟩
  have key : ∀ z : SParams, NameOk s z → z.headerCoord = x.headerCoord → ∀ d1 d2 d3 : List (Int × Int),
      (∀ rc, rc ∈ coordCell x.headerCoord → rc ∈ d1) →
      s.touchAll ((match z.seriesName with
        | some (_ :: _) => []
        | _ => coordCell z.headerCoord ++ (z.composedHeaders.getD []).flatMap coordCell) ++ d1 ++ d2 ++ d3) =
      s.touchAll (d1 ++ d2 ++ d3) := by
    intro z hz hzh d1 d2 d3 hd
    have hun : Unnamed z → s.touchAll (coordCell z.headerCoord ++ (z.composedHeaders.getD []).flatMap coordCell ++ d1 ++
        d2 ++ d3) = s.touchAll (d1 ++ d2 ++ d3) := by
      intro hu
      rw [List.append_assoc _ d1 d2, List.append_assoc _ (d1 ++ d2) d3]
      refine touchAll_extra _ _ fun rc hrc => ?_
      rcases List.mem_append.1 hrc with hrc | hrc
      · rw [hzh] at hrc
        exact .inr (by simp [hd rc hrc])
      · obtain ⟨a, ha, hrc⟩ := List.mem_flatMap.1 hrc
        obtain ⟨r, c, k1, -, k3⟩ := hz.composed hu a ha
        unfold coordCell at hrc
        rw [k1] at hrc
        rw [List.mem_singleton.1 hrc]
        exact .inl k3
    cases hn : z.seriesName with
    | none => exact hun (.inl hn)
    | some n =>
      cases n with
      | nil => exact hun (.inr hn)
      | cons a as => rfl
  obtain ⟨r, c, hh⟩ := hx.header
  unfold seriesReads
  dsimp only
  refine (key y hy a2 _ _ _ ?_).trans (Eq.trans ?_ (key x hx rfl _ _ _ ?_).symm)
  · intro rc hrc
    rw [a2, hh]
    unfold coordCell at hrc
    rw [hh] at hrc
    rw [List.mem_singleton.1 hrc]
    simp
  · simp only [e, a1, a2, a3, a4, a5, a6, a7, a8, a9, a10, a11]
  · intro rc hrc
    rw [hh]
    unfold coordCell at hrc
    rw [hh] at hrc
    rw [List.mem_singleton.1 hrc]
    simp

/-- The same error, or states in the relation with the same worksheet. -/
def SameSheetStep {α : Type} (Q : α → α → Prop) (s : Sheet) (a b : Except Err (α × Sheet)) : Prop :=
  (∃ e, a = .error e ∧ b = .error e) ∨
    ∃ x y u, a = .ok (x, u) ∧ b = .ok (y, u) ∧ Q x y ∧ u.cells = s.cells ∧ Wider s u

theorem seriesStep_names {p q : Params} {i : Nat} {x y : SParams} (hp : p.typed i = .ok x) (hq : q.typed i = .ok y)
    (h : OtherName x y) {s : Sheet} (hx : NameOk s x) (hy : NameOk s y) {bs bs' : List Bucket}
    (hb : List.Forall₂ (BucketLike Eq SameNumber) bs bs') :
    SameSheetStep (List.Forall₂ (BucketLike Eq SameNumber)) s (seriesStep ext p i s bs) (seriesStep ext q i s bs') := by
  have h' : y = _ := h
  obtain ⟨a1, a2, a3, a4, a5, a6, a7, a8⟩ :
      y.alignment = x.alignment ∧ y.dataEnds = x.dataEnds ∧ y.timeMulticolumn = x.timeMulticolumn ∧
      y.dataStarts = x.dataStarts ∧ y.frequency = x.frequency ∧ y.timeHeader = x.timeHeader ∧
      y.timeAlignment = x.timeAlignment ∧ (extractors.find? fun z => z.accepts y) = extractors.find? fun z => z.accepts x := by
    rw [h']
    exact ⟨rfl, rfl, rfl, rfl, rfl, rfl, rfl, rfl⟩
  obtain ⟨n, hn⟩ := getName_ok (ext := ext) hx
  obtain ⟨n', hn'⟩ := getName_ok (ext := ext) hy
  unfold seriesStep
  rw [bind_intro hp, bind_intro hq, a8]
  cases extractors.find? fun z => z.accepts x with
  | none => exact .inl ⟨_, rfl, rfl⟩
  | some z =>
    dsimp only
    have g1 : getSeries ext x s = (getValues ext x s).map fun vss => vss.map fun vs => (n, vs) := by
      unfold getSeries
      rw [hn]
      cases getValues ext x s <;> rfl
    have g2 : getSeries ext y s = (getValues ext x s).map fun vss => vss.map fun vs => (n', vs) := by
      unfold getSeries
      rw [hn', getValues_names h]
      cases getValues ext x s <;> rfl
    rw [g1, g2]
    cases getValues ext x s with
    | error e => exact .inl ⟨_, rfl, rfl⟩
    | ok vss =>
      have hrel : NamedRel Eq SameNumber (vss.map fun vs => (n, vs)) (vss.map fun vs => (n', vs)) := by
        unfold NamedRel
        rw [List.forall₂_map_left_iff, List.forall₂_map_right_iff]
        exact List.forall₂_same.2 fun v _ => ⟨namesFit_any _ _, List.forall₂_same.2 fun _ _ => rfl⟩
      rw [show Except.map (fun vss => vss.map fun vs => (n, vs)) (Except.ok (ε := Err) vss) =
          .ok (vss.map fun vs => (n, vs)) from rfl,
        show Except.map (fun vss => vss.map fun vs => (n', vs)) (Except.ok (ε := Err) vss) =
          .ok (vss.map fun vs => (n', vs)) from rfl, bind_intro rfl, bind_intro rfl]
      have hemp : ∀ m : Str, (vss.map fun vs => (m, vs)).isEmpty = vss.isEmpty := fun m => by cases vss <;> rfl
      rw [hemp, hemp]
      by_cases h0 : vss.isEmpty = true
      · rw [if_pos h0, if_pos h0]
        exact .inl ⟨_, rfl, rfl⟩
      · rw [if_neg h0, if_neg h0, touchAll_reads h hx hy, a1, a2, a3, a4, a5, a6, a7]
        cases singleHeader x.timeMulticolumn x.timeHeader with
        | error e => exact .inl ⟨_, rfl, rfl⟩
        | ok a =>
          rw [bind_intro rfl, bind_intro rfl]
          cases x.dataEnds with
          | none => exact .inl ⟨_, rfl, rfl⟩
          | some stop =>
            dsimp only
            cases seriesRanges ext (s.touchAll (seriesReads ext x s)) x.frequency x.dataStarts a stop
                x.timeAlignment x.alignment with
            | error e => exact .inl ⟨_, rfl, rfl⟩
            | ok prs =>
              rw [bind_intro rfl, bind_intro rfl]
              rcases putAll_rel prs hrel hb with ⟨e, j1, j2⟩ | ⟨x, y, j1, j2, j3⟩
              · rw [j1, j2]
                exact .inl ⟨_, rfl, rfl⟩
              · rw [j1, j2]
                exact .inr ⟨_, _, _, rfl, rfl, j3, by rw [touchAll_cells, touchAll_cells],
                  (wider_touchAll _ _).trans (wider_touchAll _ _)⟩

theorem seriesLoop_names {p q : Params} {xs ys : List SParams} (hp : HasSeries p xs) (hq : HasSeries q ys)
    (h : List.Forall₂ OtherName xs ys) : ∀ (is : List Nat) {s : Sheet} {bs bs' : List Bucket},
    (∀ i ∈ is, i < xs.length) → (∀ x ∈ xs, NameOk s x) → (∀ y ∈ ys, NameOk s y) →
    List.Forall₂ (BucketLike Eq SameNumber) bs bs' →
    SameSheetStep (List.Forall₂ (BucketLike Eq SameNumber)) s (seriesLoop ext p is s bs) (seriesLoop ext q is s bs')
  | [], s, bs, bs', _, _, _, hb => .inr ⟨_, _, _, rfl, rfl, hb, rfl, .refl _⟩
  | i :: is, s, bs, bs', hi, hx, hy, hb => by
    unfold seriesLoop
    rcases names_get h i with ⟨k1, -⟩ | ⟨x, y, k1, k2, k3⟩
    · have := hi i (by simp)
      rw [List.getElem?_eq_none_iff] at k1
      omega
    · rcases seriesStep_names (ext := ext) (typed_of_series hp k1) (typed_of_series hq k2) k3
        (hx x (List.mem_of_getElem? k1)) (hy y (List.mem_of_getElem? k2)) hb with
        ⟨e, j1, j2⟩ | ⟨b1, b2, u, j1, j2, j3, j4, j5⟩
      · rw [j1, j2]
        exact .inl ⟨_, rfl, rfl⟩
      · rw [j1, j2]
        dsimp only
        rcases seriesLoop_names hp hq h is (s := u) (fun j hj => hi j (by simp [hj])) (fun x k => (hx x k).grow j4 j5)
          (fun y k => (hy y k).grow j4 j5) j3 with ⟨e, l1, l2⟩ | ⟨c1, c2, v, l1, l2, l3, l4, l5⟩
        · exact .inl ⟨_, l1, l2⟩
        · exact .inr ⟨_, _, _, l1, l2, l3, l4.trans j4, j5.trans l5⟩

theorem bucketLoop_names {p q : Params} (h : q .timeMulticolumn = p .timeMulticolumn) : ∀ (as : List RangeArgs)
    (s : Sheet) (bs : List Bucket), bucketLoop ext q as s bs = bucketLoop ext p as s bs
  | [], _, _ => rfl
  | a :: as, s, bs => by
    have e : rangesOfArgs ext q s a = rangesOfArgs ext p s a := by
      unfold rangesOfArgs
      rw [h]
    unfold bucketLoop
    rw [e]
    simp only [bucketLoop_names h as]

theorem bucketLoop_grows {p : Params} : ∀ {as : List RangeArgs} {s u : Sheet} {bs bs' : List Bucket},
    bucketLoop ext p as s bs = .ok (bs', u) → u.cells = s.cells ∧ Wider s u
  | [], _, _, _, _, h => by cases h; exact ⟨rfl, .refl _⟩
  | a :: as, s, u, bs, bs', h => by
    unfold bucketLoop at h
    split at h
    · cases h
    · split at h
      · cases h
      · obtain ⟨h1, h2⟩ := bucketLoop_grows h
        exact ⟨h1.trans (touchAll_cells _ _), (wider_touchAll _ _).trans h2⟩

theorem getData_names {p q : Params} {xs ys : List SParams} (hp : HasSeries p xs) (hq : HasSeries q ys)
    (h : List.Forall₂ OtherName xs ys) {s : Sheet} (hx : ∀ x ∈ xs, NameOk s x) (hy : ∀ y ∈ ys, NameOk s y) :
    ExRel (List.Forall₂ (FrameRel Eq SameNumber)) (getData ext p s).1 (getData ext q s).1 ∧
      (getData ext q s).2 = (getData ext p s).2 := by
  have hargs : ys.map argsOf = xs.map argsOf := by
    clear hp hq hx hy
    induction h with
    | nil => rfl
    | cons hab _ ih => rw [List.map_cons, List.map_cons, argsOf_same (OtherName.dates hab), ih]
  unfold getData
  rw [rangeArgs_series hp, rangeArgs_series hq, hargs]
  have hb : ∀ {α β : Type} (a : α) (f : α → Except Err β), (Except.ok a).bind f = f a := fun _ _ => rfl
  rw [hb, hb, bucketLoop_names (names_raw hp hq h (n := .timeMulticolumn) (by decide) (by decide) (by decide))]
  cases hbl : bucketLoop ext p (xs.map argsOf) s [] with
  | error e => exact ⟨.inl ⟨_, rfl, rfl⟩, rfl⟩
  | ok z =>
    obtain ⟨bs, u⟩ := z
    dsimp only
    rw [names_raw hp hq h (n := .headersCoord) (by decide) (by decide) (by decide)]
    have l1 : Params.len (p .headersCoord) = .ok xs.length := by
      rw [hp]; unfold Params.len; simp
    rw [l1]
    dsimp only
    obtain ⟨g1, g2⟩ := bucketLoop_grows hbl
    have hsame : List.Forall₂ (BucketLike Eq SameNumber) bs bs :=
      List.forall₂_same.2 fun b _ => ⟨rfl, rfl, rfl, List.forall₂_same.2 fun _ _ => List.forall₂_same.2 fun _ _ => rfl⟩
    rcases seriesLoop_names (ext := ext) hp hq h (List.range xs.length) (s := u) (fun i hi => List.mem_range.1 hi)
      (fun x k => (hx x k).grow g1 g2) (fun y k => (hy y k).grow g1 g2) hsame with
      ⟨e, j1, j2⟩ | ⟨b1, b2, v, j1, j2, j3, -, -⟩
    · rw [j1, j2]
      exact ⟨.inl ⟨_, rfl, rfl⟩, rfl⟩
    · rw [j1, j2]
      exact ⟨framesOf_rel (fun c d h => h) j3, rfl⟩

theorem OtherName.inDates {x y : SParams} (h : OtherName x y) (r c : Int) : InDates y r c ↔ InDates x r c := by
  rw [show y = _ from h]
  exact Iff.rfl

theorem scrape_names {p q : Params} {xs ys : List SParams} (hp : HasSeries p xs) (hq : HasSeries q ys)
    (h : List.Forall₂ OtherName xs ys) {s : Sheet} (hs : WellFormed s) (hx : ∀ x ∈ xs, Nameable xs s x)
    (hy : ∀ y ∈ ys, Nameable ys s y) :
    ExRel (List.Forall₂ (FrameRel Eq SameNumber)) (scrape ext p s).1 (scrape ext q s).1 ∧
      (scrape ext q s).2.2 = (scrape ext p s).2.2 := by
  have hdates : ∀ {r c : Int}, (∀ x ∈ xs, ¬ InDates x r c) ↔ ∀ y ∈ ys, ¬ InDates y r c := by
    intro r c
    clear hp hq hx hy
    induction h with
    | nil => simp
    | cons hab _ ih => simp only [List.mem_cons, forall_eq_or_imp, OtherName.inDates hab, ih]
  have hw := cleanData_wider (ext := ext) p s
  have hcells : ∀ r c, (∀ x ∈ xs, ¬ InDates x r c) → (cleanData ext p s).2.2.cells r c = s.cells r c := by
    intro r c hd
    have c1 := cleanData_over (T := dateCells xs) (g := s.cells) ext hp (fun sp h => dateCells_dates h) s
    rw [over_self] at c1
    have : (cleanData ext p s).2.2 = over (dateCells xs) s.cells (cleanData ext p s).2.2 := by
      conv_lhs => rw [c1]
    rw [this]
    refine if_neg fun hd' => ?_
    obtain ⟨x, k1, k2⟩ := dateCells_iff.1 hd'
    exact hd x k1 k2
  have hin : ∀ {r c : Int}, HoldsText (s.cells r c) → Reached s (r, c) := by
    intro r c ht
    by_cases hi : 1 ≤ r ∧ r ≤ s.maxRow ∧ 1 ≤ c ∧ c ≤ s.maxCol
    · exact ⟨hi.2.1, hi.2.2.2⟩
    · rw [hs.outside r c hi] at ht
      exact absurd ht id
  have hok : ∀ z, (∃ r c, coordOf z.headerCoord = .ok (r, c)) →
      (Unnamed z → ∀ a ∈ z.composedHeaders.getD [], ∃ r c, coordOf a = .ok (r, c) ∧ HoldsText (s.cells r c) ∧
        ∀ x ∈ xs, ¬ InDates x r c) → NameOk (cleanData ext p s).2.2 z := by
    intro z h1 h2
    refine ⟨h1, fun hu a ha => ?_⟩
    obtain ⟨r, c, k1, k2, k3⟩ := h2 hu a ha
    exact ⟨r, c, k1, by rw [hcells r c k3]; exact k2, reached_wider (hin k2) hw⟩
  have key := cleanData_names (ext := ext) (P := NameOk (cleanData ext p s).2.2) (fun x e k => ⟨k.header, k.composed⟩)
    hp hq h (fun x k => hok x (hx x k).header (hx x k).composed)
    (fun y k => hok y (hy y k).header fun hu a ha => by
      obtain ⟨r, c, k1, k2, k3⟩ := (hy y k).composed hu a ha
      exact ⟨r, c, k1, k2, hdates.2 k3⟩) s
  clear hw hcells hok
  unfold scrape
  revert key
  rcases cleanData ext p s with ⟨a, p', u⟩
  rcases cleanData ext q s with ⟨b, q', v⟩
  rintro ⟨k1, k2, xs', ys', k3, k4, k5, k6, k7⟩
  dsimp only at k1 k2 k3 k4 k6 k7
  subst k1 k2
  cases b with
  | error e => exact ⟨.inl ⟨_, rfl, rfl⟩, rfl⟩
  | ok _ => exact getData_names k3 k4 k5 k6 k7

end Xls
