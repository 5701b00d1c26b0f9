/-
Dates and values in turn in one column.
-/
import Verif.Lemmas.Offset

set_option autoImplicit false

namespace Xls

open Spec

theorem pick {β : Type} (f : Int → Option β) (g : Entry → β) : ∀ (n : Nat) (es : List Entry) (lo : Int),
    (es.Pairwise fun e e' => e.pos < e'.pos) →
    (∀ e ∈ es, lo ≤ e.pos ∧ e.pos < lo + n ∧ f e.pos = some (g e)) →
    (∀ pos, lo ≤ pos → pos < lo + n → (∀ e ∈ es, pos ≠ e.pos) → f pos = none) →
    (List.range n).filterMap (fun i : Nat => f (lo + i)) = es.map g
  | 0, es, lo, _, h, _ => by
    cases es with
    | nil => rfl
    | cons e es =>
      have := h e (by simp)
      omega
  | n + 1, es, lo, hp, h, hn => by
    have hshift : ∀ es' : List Entry, (es'.Pairwise fun (e e' : Entry) => e.pos < e'.pos) →
        (∀ e ∈ es', lo + 1 ≤ e.pos ∧ e.pos < lo + 1 + n ∧ f e.pos = some (g e)) →
        (∀ pos, lo + 1 ≤ pos → pos < lo + 1 + n → (∀ e ∈ es', pos ≠ e.pos) → f pos = none) →
        (List.range n).filterMap (fun i : Nat => f (lo + (i + 1 : Nat))) = es'.map g := by
      intro es' h1 h2 h3
      rw [← pick f g n es' (lo + 1) h1 h2 h3]
      refine List.filterMap_congr fun i _ => ?_
      congr 1
      omega
    rw [List.range_succ_eq_map, List.filterMap_cons, List.filterMap_map]
    simp only [Int.natCast_zero, Int.add_zero]
    by_cases hlo : ∃ e ∈ es, e.pos = lo
    · obtain ⟨e0, hm, he0⟩ := hlo
      cases es with
      | nil => cases hm
      | cons e es =>
        have hp1 := List.pairwise_cons.1 hp
        have he : e.pos = lo := by
          rcases List.mem_cons.1 hm with rfl | hm
          · exact he0
          · have := hp1.1 e0 hm
            have := (h e (by simp)).1
            omega
        have hf := (h e (by simp)).2.2
        rw [he] at hf
        rw [hf]
        simp only [List.map_cons]
        congr 1
        refine hshift es hp1.2 (fun e' hm' => ?_) (fun pos h1 h2 h3 => ?_)
        · obtain ⟨q1, q2, q3⟩ := h e' (List.mem_cons_of_mem _ hm')
          have := hp1.1 e' hm'
          exact ⟨by omega, by omega, q3⟩
        · refine hn pos (by omega) (by omega) fun e' hm' => ?_
          rcases List.mem_cons.1 hm' with rfl | hm'
          · omega
          · exact h3 e' hm'
    · have hf : f lo = none := hn lo (by omega) (by omega) fun e hm he => hlo ⟨e, hm, he.symm⟩
      rw [hf]
      refine hshift es hp (fun e hm => ?_) (fun pos h1 h2 h3 => hn pos (by omega) (by omega) h3)
      obtain ⟨q1, q2, q3⟩ := h e hm
      have : e.pos ≠ lo := fun he => hlo ⟨e, hm, he⟩
      exact ⟨by omega, by omega, q3⟩

section
variable {sp : SParams} {s : Sheet} {hr hc : Int} {es : List Entry}

theorem Spec.InTurn.cell (h : InTurn sp s hr hc es) (pos : Int) : timeCell s sp.alignment hr hc pos = s.cells pos hc := by
  unfold timeCell rowOf colOf
  rw [h.vertical]
  simp

/-- Where the entries are. -/
theorem Spec.InTurn.bounds (h : InTurn sp s hr hc es) {z : Entry} (hz : es.getLast? = some z) :
    sp.dataStarts < z.pos ∧ ∀ e ∈ es, sp.dataStarts ≤ e.pos ∧ e.pos ≤ z.pos := by
  obtain ⟨l, rfl⟩ := List.getLast?_eq_some_iff.1 hz
  have hfirst := h.first
  have hp := h.ordered
  have h2 := h.several
  cases l with
  | nil => simp at h2
  | cons a l =>
    simp at hfirst
    rw [List.cons_append, List.pairwise_cons] at hp
    have hz1 := hp.1 z (by simp)
    have hp2 := (List.pairwise_append.1 hp.2).2.2
    refine ⟨by omega, fun e hm => ?_⟩
    rw [List.cons_append, List.mem_cons] at hm
    rcases hm with rfl | hm
    · omega
    · have := hp.1 e hm
      refine ⟨by omega, ?_⟩
      rcases List.mem_append.1 hm with hm | hm
      · have := hp2 e hm z (by simp); omega
      · rw [List.mem_singleton] at hm; subst hm; omega

theorem Spec.InTurn.firstEntry (h : InTurn sp s hr hc es) : ∃ a, es.head? = some a ∧ a ∈ es ∧ a.pos = sp.dataStarts := by
  have := h.first
  cases he : es.head? with
  | none => rw [he] at this; cases this
  | some a =>
    rw [he] at this
    exact ⟨a, rfl, List.mem_of_head? he, by simpa using this⟩

/-- What is in the column. -/
theorem Spec.InTurn.kinds (h : InTurn sp s hr hc es) {z : Entry} (hz : es.getLast? = some z) {pos : Int}
    (h1 : sp.dataStarts ≤ pos) (h2 : pos ≤ lastPosition sp s) (h3 : pos ≤ z.pos + 42) :
    (∃ e ∈ es, pos = e.pos + sp.timeAlignment) ∨ PassedOver sp (s.cells pos hc) := by
  by_cases hd : ∃ e ∈ es, pos = e.pos + sp.timeAlignment
  · exact .inl hd
  · refine .inr ?_
    by_cases hv : ∃ e ∈ es, pos = e.pos
    · obtain ⟨e, hm, rfl⟩ := hv
      rw [h.value e hm]
      refine .inr ⟨?_, _, rfl⟩
      rcases h.beside with e | e <;> rw [e] <;> decide
    · refine .inl (h.blank pos h1 h2 (fun e he => ?_) fun e hm => ⟨fun e' => hv ⟨e, hm, e'⟩, fun e' => hd ⟨e, hm, e'⟩⟩)
      rw [hz] at he
      cases he
      exact h3

/-- A date is never a value. -/
theorem Spec.InTurn.apart (h : InTurn sp s hr hc es) {e e' : Entry} (hm : e ∈ es) (hm' : e' ∈ es) :
    e.pos ≠ e'.pos + sp.timeAlignment := by
  intro he
  have h1 := h.value e hm
  rw [he, h.date e' hm'] at h1
  cases h1

theorem Spec.InTurn.gap (h : InTurn sp s hr hc es) : ∀ (i : Nat) (e : Entry) (pos : Int), es[i]? = some e →
    sp.dataStarts ≤ pos → pos ≤ e.pos + sp.timeAlignment →
    ∃ e' ∈ es, pos ≤ e'.pos + sp.timeAlignment ∧ e'.pos + sp.timeAlignment ≤ pos + 40
  | 0, e, pos, hi, h1, h2 => by
    have hf := h.first
    rw [List.head?_eq_getElem?, hi] at hf
    simp at hf
    refine ⟨e, List.mem_of_getElem? hi, h2, ?_⟩
    rcases h.beside with e | e <;> omega
  | i + 1, e, pos, hi, h1, h2 => by
    have hlt := (List.getElem?_eq_some_iff.1 hi).1
    have hi0 : es[i]? = some es[i] := List.getElem?_eq_getElem (by omega)
    by_cases hle : pos ≤ es[i].pos + sp.timeAlignment
    · exact h.gap i _ pos hi0 h1 hle
    · have := h.close i _ e hi0 hi
      exact ⟨e, List.mem_of_getElem? hi, h2, by omega⟩

theorem offset_in_turn (h : InTurn sp s hr hc es) {z : Entry} (hz : es.getLast? = some z) :
    OffsetIndex sp s hr hc z.pos := by
  obtain ⟨hb1, hb2⟩ := h.bounds hz
  obtain ⟨a, ha, ham, hapos⟩ := h.firstEntry
  have hzm : z ∈ es := List.mem_of_getLast? hz
  have hw := h.within z hzm
  have hta := h.beside
  have hst := h.starts
  have htol : Tolerant sp := .inl h.loose
  have hgl : gapLimit sp = 41 := gapLimit_tolerant htol
  have hdate : ∀ {pos : Int}, (∃ e ∈ es, pos = e.pos + sp.timeAlignment) → IsDate (s.cells pos hc) := by
    rintro pos ⟨e, hm, rfl⟩
    rw [h.date e hm]
    trivial
  refine { header := ⟨_, h.time, h.header⟩, single := h.single, plain := h.plain, aligned := .inl h.vertical
           starts := hst.1, dates := hst.2, two := hb1, more := by omega
           first := ⟨a.date, by rw [h.cell, ← hapos]; exact h.date a ham⟩
           final := ⟨z.date, by rw [h.cell]; exact h.date z hzm⟩
           before := ?_, between := ?_, shortGaps := ?_, within := hw.2, after := .inr ⟨h.vertical, ?_⟩ }
  · intro pos h1 h2
    rw [h.cell]
    have hpos : pos = a.pos := by omega
    rw [hpos, h.value a ham]
    exact .inr ⟨by omega, _, rfl⟩
  · intro pos h1 h2
    rw [h.cell]
    rcases h.kinds hz h1 (by omega) (by omega) with hd | hp
    · exact .inl (hdate hd)
    · exact .inr ⟨hp, htol⟩
  · intro pos h1 h2
    rw [hgl] at h2 ⊢
    obtain ⟨i, hi⟩ := List.getElem?_of_mem hzm
    obtain ⟨e, hm, g1, g2⟩ := h.gap i z pos hi h1 (by omega)
    refine ⟨(e.pos + sp.timeAlignment - pos).toNat, by omega, ?_⟩
    rw [h.cell]
    exact hdate ⟨e, hm, by omega⟩
  · intro pos h1 h2 h3
    rw [hgl] at h3
    rw [h.cell]
    rcases h.kinds hz (by omega) h2 (by omega) with ⟨e, hm, he⟩ | hp
    · have := (hb2 e hm).2
      omega
    · exact hp

theorem dates_in_turn (h : InTurn sp s hr hc es) {z : Entry} (hz : es.getLast? = some z) :
    (datesOf sp s hr hc z.pos).filterMap id = es.map Entry.date := by
  obtain ⟨hb1, hb2⟩ := h.bounds hz
  have hzm : z ∈ es := List.mem_of_getLast? hz
  have hw := h.within z hzm
  have hta := h.beside
  obtain ⟨a, ha, ham, hapos⟩ := h.firstEntry
  unfold datesOf cellsAlong
  rw [List.map_map, List.filterMap_map, ← pick (fun pos => dateIn (s.cells (pos + sp.timeAlignment) hc)) Entry.date
    (z.pos + 1 - sp.dataStarts).toNat es sp.dataStarts h.ordered]
  · rw [show z.pos + sp.timeAlignment + 1 - (sp.dataStarts + sp.timeAlignment) = z.pos + 1 - sp.dataStarts by omega]
    refine List.filterMap_congr fun i _ => ?_
    show dateIn (timeCell s sp.alignment hr hc (sp.dataStarts + sp.timeAlignment + i)) = _
    rw [h.cell, show sp.dataStarts + sp.timeAlignment + (i : Int) = sp.dataStarts + i + sp.timeAlignment by omega]
  · intro e hm
    have := hb2 e hm
    refine ⟨this.1, by omega, ?_⟩
    rw [h.date e hm]; rfl
  · intro pos h1 h2 h3
    by_cases hs : sp.dataStarts ≤ pos + sp.timeAlignment
    · rcases h.kinds hz hs (by omega) (by omega) with ⟨e, hm, he⟩ | hp
      · exact absurd (by omega) (h3 e hm)
      · exact passed_not_date hp
    · exact absurd (by omega) (h3 a ham)

theorem values_in_turn {ext : Ext} (h : InTurn sp s hr hc es) {z : Entry} (hz : es.getLast? = some z)
    (grid : List Time) :
    ValuesAre ext sp (cellsAlong s sp.alignment hr hc sp.dataStarts z.pos) (datesOf sp s hr hc z.pos) grid
      (es.map Entry.value) := by
  obtain ⟨hb1, hb2⟩ := h.bounds hz
  have hzm : z ∈ es := List.mem_of_getLast? hz
  have hw := h.within z hzm
  have hta := h.beside
  obtain ⟨a, ha, ham, hapos⟩ := h.firstEntry
  have hno : ∀ x : Prop, sp.missings = true → x := fun x hm => by rw [h.noMissings] at hm; cases hm
  refine .dated (markers := []) h.loose (hno _) (hno _) ?_
  unfold datesOf cellsAlong
  rw [List.map_map, show z.pos + sp.timeAlignment + 1 - (sp.dataStarts + sp.timeAlignment) =
    z.pos + 1 - sp.dataStarts by omega, List.zip_map', List.filterMap_map,
    ← pick (fun pos => if (dateIn (s.cells (pos + sp.timeAlignment) hc)).isSome then
        looseValue ext sp.missings [] (s.cells pos hc) else none) Entry.value
    (z.pos + 1 - sp.dataStarts).toNat es sp.dataStarts h.ordered]
  · refine List.filterMap_congr fun i _ => ?_
    simp only [Function.comp]
    rw [h.cell, h.cell, show sp.dataStarts + sp.timeAlignment + (i : Int) = sp.dataStarts + i + sp.timeAlignment by omega]
  · intro e hm
    have := hb2 e hm
    refine ⟨this.1, by omega, ?_⟩
    rw [h.date e hm, h.value e hm, h.noMissings]
    simp [dateIn, looseValue, blankAsNothing, numberIn]
  · intro pos h1 h2 h3
    by_cases hs : sp.dataStarts ≤ pos + sp.timeAlignment
    · rcases h.kinds hz hs (by omega) (by omega) with ⟨e, hm, he⟩ | hp
      · exact absurd (by omega) (h3 e hm)
      · rw [passed_not_date hp]; rfl
    · exact absurd (by omega) (h3 a ham)

end

end Xls
