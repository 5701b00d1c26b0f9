/-
The data frames of two worksheets whose dates are written in other ways.
-/
import Verif.Lemmas.Rewritten
import Verif.Lemmas.Numbers3

set_option autoImplicit false

namespace Xls

open Spec

variable {ext : Ext} {sps : List SParams} {E : Int → Int → Prop} {s t : Sheet}

theorem cleanSeries_rewritten (hm : ∀ sp ∈ sps, sp.timeMulticolumn = false) : ∀ (rest pre : List SParams) {p : Params}
    {s t : Sheet} (ends : List (Str × Int)), HasSeries p (pre ++ rest) → (∀ sp ∈ rest, sp ∈ sps) →
    DatesLike ext sps E s t →
    (cleanSeries ext (List.range' pre.length rest.length) p t ends).1 =
      (cleanSeries ext (List.range' pre.length rest.length) p s ends).1 ∧
    (cleanSeries ext (List.range' pre.length rest.length) p t ends).2.1 =
      (cleanSeries ext (List.range' pre.length rest.length) p s ends).2.1 ∧
    DatesLike ext sps E (cleanSeries ext (List.range' pre.length rest.length) p s ends).2.2
      (cleanSeries ext (List.range' pre.length rest.length) p t ends).2.2
  | [], _, _, _, _, _, _, _, h => ⟨rfl, rfl, h⟩
  | sp :: rest, pre, p, s, t, ends, hp, hr, h => by
    have hi : (pre ++ sp :: rest)[pre.length]? = some sp := by simp
    rw [List.length_cons, List.range'_succ]
    unfold cleanSeries
    cases hh : (Params.index (p .timeHeaderCoord) pre.length).bind PVal.asStr with
    | error e => exact ⟨rfl, rfl, h⟩
    | ok a =>
      dsimp only
      have hone : StepLike ext sps E (cleanOnce ext p s ends pre.length a) (cleanOnce ext p t ends pre.length a) := by
        unfold cleanOnce
        split
        · exact ⟨rfl, h⟩
        · rw [typed_of_series hp hi]
          dsimp only
          have h1 := cleanTimeIndex_rewritten (hr sp (by simp)) (hm sp (hr sp (by simp))) h
          revert h1
          rcases cleanTimeIndex ext sp s with ⟨x, u⟩
          rcases cleanTimeIndex ext sp t with ⟨y, v⟩
          rintro ⟨h1, h2⟩
          dsimp only at h1 h2
          subst h1
          cases x with
          | error e => exact ⟨rfl, h2⟩
          | ok stop =>
            dsimp only
            split
            · exact ⟨rfl, h2⟩
            · exact ⟨rfl, h2⟩
      revert hone
      rcases cleanOnce ext p s ends pre.length a with ⟨x, u⟩
      rcases cleanOnce ext p t ends pre.length a with ⟨y, v⟩
      rintro ⟨h1, h2⟩
      dsimp only at h1 h2
      subst h1
      cases x with
      | error e => exact ⟨rfl, rfl, h2⟩
      | ok k =>
        obtain ⟨stop, ends'⟩ := k
        dsimp only
        rw [index_of_series hp .dataEnds hi]
        dsimp only
        have h3 := setEnd_series stop hp
        have := cleanSeries_rewritten hm rest (pre ++ [Spec.endingAt stop sp]) ends' (by
          rw [List.append_assoc]; exact h3) (fun sq hsq => hr sq (by simp [hsq])) h2
        rw [List.length_append, List.length_singleton] at this
        exact this

theorem cleanData_rewritten (hm : ∀ sp ∈ sps, sp.timeMulticolumn = false) {p : Params} (hp : HasSeries p sps)
    (h : DatesLike ext sps E s t) :
    (cleanData ext p t).1 = (cleanData ext p s).1 ∧ (cleanData ext p t).2.1 = (cleanData ext p s).2.1 ∧
      DatesLike ext sps E (cleanData ext p s).2.2 (cleanData ext p t).2.2 := by
  unfold cleanData
  cases hsps : sps with
  | nil =>
    have e : Params.index (p .timeMulticolumn) 0 = .error .indexError := by rw [hp, hsps]; rfl
    rw [e]
    exact ⟨rfl, rfl, hsps ▸ h⟩
  | cons sp rest =>
    rw [← hsps]
    have hi : sps[0]? = some sp := by rw [hsps]; rfl
    have hmem : sp ∈ sps := by rw [hsps]; simp
    rw [index_of_series hp .timeMulticolumn hi]
    dsimp only
    have hf : (rawValue sp .timeMulticolumn).truthy = false := by
      show (PVal.bool sp.timeMulticolumn).truthy = false
      rw [hm sp hmem]
      rfl
    rw [hf, if_neg (by simp), if_neg (by simp)]
    have e : Params.len (p .timeHeaderCoord) = .ok sps.length := by
      rw [hp]; unfold Params.len; simp
    rw [e]
    dsimp only
    rw [List.range_eq_range']
    exact cleanSeries_rewritten hm sps [] [] hp (fun _ h => h) h

theorem dateCell_rewritten {sp : SParams} {c d : Cell} (h : SameDate ext sp c d) : DateCell ext c d := by
  cases h with
  | same => exact .refl _
  | @texts a b h =>
    have ha : a ≠ [] := fun e => h.left (by rw [e]; rfl)
    have hb : b ≠ [] := fun e => h.right (by rw [e]; rfl)
    have t1 : (Cell.str a).truthy = true := by cases a with | nil => exact absurd rfl ha | cons _ _ => rfl
    have t2 : (Cell.str b).truthy = true := by cases b with | nil => exact absurd rfl hb | cons _ _ => rfl
    refine ⟨rfl, by rw [t1, t2], ?_, ?_⟩
    · unfold arrowGet
      dsimp only
      rw [h.arrow]
    · unfold toTimestamp
      dsimp only
      rw [h.pandas]

theorem scrape_rewritten (hm : ∀ sp ∈ sps, sp.timeMulticolumn = false) {p : Params} (hp : HasSeries p sps)
    (h : Rewritten ext sps s t) :
    (scrape ext p t).1 = (scrape ext p s).1 ∧ (scrape ext p t).2.1 = (scrape ext p s).2.1 := by
  have h0 : DatesLike ext sps (fun r c => t.cells r c = s.cells r c) s t :=
    ⟨h.rows, h.cols, h.dates, fun _ _ h => h⟩
  obtain ⟨k1, k2, k3⟩ := cleanData_rewritten hm hp h0
  unfold scrape
  obtain ⟨z, hz⟩ : ∃ z, cleanData ext p s = z := ⟨_, rfl⟩
  obtain ⟨z', hz'⟩ : ∃ z, cleanData ext p t = z := ⟨_, rfl⟩
  obtain ⟨x, p', u⟩ := z
  obtain ⟨y, q', v⟩ := z'
  rw [hz, hz'] at k1 k2 k3
  dsimp only at k1 k2 k3
  subst k1 k2
  rw [hz, hz']
  cases y with
  | error e => exact ⟨rfl, rfl⟩
  | ok w =>
    dsimp only
    obtain ⟨sps', hp', hf⟩ := cleanData_filled hp hz
    have hs := filled_same hf
    have pair : Pair ext Eq Eq sps' u v := by
      refine ⟨k3.rows, k3.cols, fun sp' h1 r c h2 => ?_, fun sp' h1 => ?_, fun sp' h1 r c h2 => ?_⟩
      · obtain ⟨sp, k4, k5⟩ := hs sp' h1
        rw [k5] at h2
        exact dateCell_rewritten (k3.dates sp k4 r c h2)
      · obtain ⟨sp, k4, k5⟩ := hs sp' h1
        rw [k5, getName_cells (s := u) (t := v)]
        · exact exRel_of fun x _ => namesFit_eq x
        · exact fun a ha r c hc => k3.same r c (h.headers sp k4 a ha r c hc)
      · obtain ⟨sp, k4, k5⟩ := hs sp' h1
        rw [k5] at h2
        rw [k3.same r c (h.values sp k4 r c h2)]
        refine exRel_of fun o _ => ?_
        cases o with
        | none => trivial
        | some x => exact rfl
    refine ⟨?_, rfl⟩
    rcases (getData_rel rfl rfl (fun c d h => by rw [h]) hp' pair).1 with ⟨e, j1, j2⟩ | ⟨fs, gs, j1, j2, j3⟩
    · rw [j1, j2]
    · rw [j1, j2]
      congr 1
      have : List.Forall₂ Eq fs gs := j3.imp fun f g h => by
        have h4 := h.data
        rw [show List.Forall₂ (Eq (α := Num)) = Eq from List.forall₂_eq_eq_eq, List.forall₂_eq_eq_eq] at h4
        obtain ⟨f1, f2, f3, f4⟩ := f
        obtain ⟨g1, g2, g3, g4⟩ := g
        obtain ⟨e1, e2, e3, -⟩ := h
        dsimp only at e1 e2 e3 h4
        subst e1 e2 e3 h4
        rfl
      rw [List.forall₂_eq_eq_eq] at this
      exact this.symm

end Xls
