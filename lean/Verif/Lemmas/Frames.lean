/-
Lemmas on gathering series into data frames.
-/
import Mathlib.Data.List.Perm.Subperm
import Mathlib.Data.List.Forall2
import Verif.Model.Frames
import Verif.Spec.Frames
import Verif.Lemmas.Coords

set_option autoImplicit false

namespace Xls

open Spec

/-! ### Names -/

theorem indexedName_eq {name : Str} {k : Nat} (h : 1 ≤ k) : indexedName name k = suffixed name k := by
  unfold indexedName suffixed
  by_cases h1 : k = 1
  · subst h1; rfl
  · rw [if_neg (by omega), if_neg h1]

theorem suffixed_inj {name : Str} {i j : Nat} (h : suffixed name i = suffixed name j) : i = j := by
  unfold suffixed at h
  have hl : ∀ n, name ≠ name ++ c!"." ++ natStr n := by
    intro n hn
    have := congrArg List.length hn
    simp at this
  by_cases hi : i = 1 <;> by_cases hj : j = 1
  · omega
  · rw [if_pos hi, if_neg hj] at h; exact absurd h (hl j)
  · rw [if_neg hi, if_pos hj] at h; exact absurd h.symm (hl i)
  · rw [if_neg hi, if_neg hj] at h
    have := List.append_cancel_left h
    rw [← digitsVal_natStr i, this, digitsVal_natStr]

theorem addNameFrom_spec {name : Str} {columns : List Str} :
    ∀ (fuel i : Nat), 1 ≤ i → (∃ j, i ≤ j ∧ j < i + fuel ∧ suffixed name j ∉ columns) →
    ∃ k, i ≤ k ∧ addNameFrom name columns fuel i = columns ++ [suffixed name k] ∧
      suffixed name k ∉ columns ∧ ∀ j, i ≤ j → j < k → suffixed name j ∈ columns
  | 0, i, _, ⟨j, h1, h2, _⟩ => by omega
  | fuel + 1, i, hi, ⟨j, h1, h2, h3⟩ => by
    unfold addNameFrom
    rw [indexedName_eq hi]
    by_cases h : suffixed name i ∉ columns
    · rw [if_pos h]
      exact ⟨i, Nat.le_refl _, rfl, h, fun j _ _ => by omega⟩
    · rw [if_neg h]
      have hne : i ≠ j := by rintro rfl; exact h h3
      obtain ⟨k, k1, k2, k3, k4⟩ := addNameFrom_spec fuel (i + 1) (by omega) ⟨j, by omega, by omega, h3⟩
      refine ⟨k, by omega, k2, k3, ?_⟩
      intro j' a b
      by_cases e : j' = i
      · subst e; exact Decidable.not_not.1 h
      · exact k4 j' (by omega) b

theorem exists_free (name : Str) (columns : List Str) :
    ∃ j, 1 ≤ j ∧ j < 1 + (columns.length + 1) ∧ suffixed name j ∉ columns := by
  apply Classical.byContradiction
  intro hno
  have hsub : (List.range' 1 (columns.length + 1)).map (suffixed name) ⊆ columns := by
    intro x hx
    obtain ⟨j, hj, rfl⟩ := List.mem_map.1 hx
    rw [List.mem_range'_1] at hj
    apply Classical.byContradiction
    intro hn
    exact hno ⟨j, hj.1, hj.2, hn⟩
  have hnd : ((List.range' 1 (columns.length + 1)).map (suffixed name)).Nodup :=
    List.Nodup.map (fun _ _ => suffixed_inj) List.nodup_range'
  have := (hnd.subperm hsub).length_le
  rw [List.length_map, List.length_range'] at this
  omega

theorem addName_spec (name : Str) (columns : List Str) :
    ∃ col, addName name columns = columns ++ [col] ∧ FreshName columns name col := by
  obtain ⟨k, k1, k2, k3, k4⟩ := addNameFrom_spec (columns.length + 1) 1 (Nat.le_refl _)
    (exists_free name columns)
  exact ⟨suffixed name k, k2, k, k1, rfl, k3, k4⟩

theorem freshName_unique {used : List Str} {name a b : Str} (ha : FreshName used name a)
    (hb : FreshName used name b) : a = b := by
  obtain ⟨i, i1, rfl, i3, i4⟩ := ha
  obtain ⟨j, j1, rfl, j3, j4⟩ := hb
  rcases Nat.lt_trichotomy i j with h | h | h
  · exact absurd (j4 i i1 h) i3
  · rw [h]
  · exact absurd (i4 j j1 h) j3

theorem columnsOf_nodup {names cols : List Str} (h : ColumnsOf names cols) :
    cols.Nodup ∧ cols.length = names.length := by
  induction h with
  | nil => exact ⟨List.nodup_nil, rfl⟩
  | @snoc names cols name col _ hf ih =>
    refine ⟨?_, by simp [ih.2]⟩
    obtain ⟨k, _, _, h, _⟩ := hf
    rw [List.nodup_append]
    refine ⟨ih.1, by simp, ?_⟩
    intro a ha b hb
    rw [List.mem_singleton] at hb
    subst hb
    rintro rfl
    exact h ha

/-- The names added one after the other. -/
def addNames (columns names : List Str) : List Str := names.foldl (fun cols n => addName n cols) columns

theorem addNames_columnsOf {names0 cols0 : List Str} (h : ColumnsOf names0 cols0) :
    ∀ names, ColumnsOf (names0 ++ names) (addNames cols0 names) := by
  intro names
  induction names generalizing names0 cols0 with
  | nil => rw [List.append_nil]; exact h
  | cons n names ih =>
    obtain ⟨col, h1, h2⟩ := addName_spec n cols0
    have := ih (ColumnsOf.snoc h h2)
    unfold addNames at this ⊢
    rw [List.foldl_cons, h1]
    rw [List.append_assoc] at this
    exact this

/-! ### Buckets -/

/-- What a series gives for one of its frequencies: the key of its period range, a name and values. -/
abbrev Keyed := (Str × Time × Time) × Str × List Num

/-- A bucket after adding the series of its key. -/
def deliver (cs : List Keyed) (b : Bucket) : Bucket :=
  { b with
    columns := addNames b.columns ((cs.filter fun c => c.1 = b.key).map fun c => c.2.1)
    data := b.data ++ (cs.filter fun c => c.1 = b.key).map fun c => c.2.2 }

theorem deliver_nil (b : Bucket) : deliver [] b = b := by
  unfold deliver addNames
  simp

theorem deliver_key (cs : List Keyed) (b : Bucket) : (deliver cs b).key = b.key := rfl

theorem deliver_append (cs ds : List Keyed) (b : Bucket) :
    deliver (cs ++ ds) b = deliver ds (deliver cs b) := by
  unfold deliver addNames
  simp

theorem putSeries_ok {name : Str} {values : List Num} {k : Str × Time × Time} :
    ∀ {bs bs' : List Bucket}, (bs.map Bucket.key).Nodup → putSeries name values k bs = .ok bs' →
    k ∈ bs.map Bucket.key ∧ bs' = bs.map (deliver [(k, name, values)])
  | [], bs', _, h => by unfold putSeries at h; cases h
  | b :: bs, bs', hnd, h => by
    rw [List.map_cons, List.nodup_cons] at hnd
    unfold putSeries at h
    by_cases hk : b.key = k
    · rw [if_pos hk] at h
      cases h
      refine ⟨by rw [List.map_cons, hk]; exact List.mem_cons_self, ?_⟩
      rw [List.map_cons]
      congr 1
      · unfold deliver addNames
        simp [hk]
      · rw [List.map_congr_left (g := id), List.map_id]
        intro c hc
        have : k ≠ c.key := by
          rintro rfl
          exact hnd.1 (hk ▸ List.mem_map_of_mem hc)
        unfold deliver addNames
        simp [this]
    · rw [if_neg hk] at h
      cases hp : putSeries name values k bs with
      | error e => rw [hp] at h; cases h
      | ok bs1 =>
        rw [hp] at h
        cases h
        obtain ⟨h1, h2⟩ := putSeries_ok hnd.2 hp
        refine ⟨by rw [List.map_cons]; exact List.mem_cons_of_mem _ h1, ?_⟩
        rw [List.map_cons, h2]
        congr 1
        have : k ≠ b.key := fun h => hk h.symm
        unfold deliver addNames
        simp [this]

/-- A range of a series with its key. -/
def KeyedAs (c : PRange × Str × List Num) (d : Keyed) : Prop :=
  rangeKey c.1 = .ok d.1 ∧ d.2 = c.2

theorem deliver_map_key (cs : List Keyed) (bs : List Bucket) :
    (bs.map (deliver cs)).map Bucket.key = bs.map Bucket.key := by
  rw [List.map_map]
  rfl

theorem putAll_ok : ∀ {cs : List (PRange × Str × List Num)} {bs bs' : List Bucket},
    (bs.map Bucket.key).Nodup → putAll cs bs = .ok bs' →
    ∃ ds : List Keyed, List.Forall₂ KeyedAs cs ds ∧ (∀ d ∈ ds, d.1 ∈ bs.map Bucket.key) ∧
      bs' = bs.map (deliver ds)
  | [], bs, bs', _, h => by
    unfold putAll at h
    cases h
    refine ⟨[], .nil, by simp, ?_⟩
    rw [List.map_congr_left (g := id) (fun b _ => deliver_nil b), List.map_id]
  | (pr, name, values) :: cs, bs, bs', hnd, h => by
    unfold putAll at h
    cases hk : rangeKey pr with
    | error e => rw [hk] at h; cases h
    | ok k =>
      rw [hk] at h
      dsimp only at h
      cases hp : putSeries name values k bs with
      | error e => rw [hp] at h; cases h
      | ok bs1 =>
        rw [hp] at h
        dsimp only at h
        obtain ⟨h1, h2⟩ := putSeries_ok hnd hp
        have hnd1 : (bs1.map Bucket.key).Nodup := by rw [h2, deliver_map_key]; exact hnd
        obtain ⟨ds, d1, d2, d3⟩ := putAll_ok hnd1 h
        rw [h2, deliver_map_key] at d2
        refine ⟨(k, name, values) :: ds, .cons ⟨hk, rfl⟩ d1, ?_, ?_⟩
        · intro d hd
          rcases List.mem_cons.1 hd with rfl | hd
          · exact h1
          · exact d2 d hd
        · rw [d3, h2, List.map_map]
          refine List.map_congr_left ?_
          intro b _
          exact (deliver_append [(k, name, values)] ds b).symm

end Xls
