/-
A period range is determined by its frequency, its first and its last date.
-/
import Verif.Lemmas.PeriodRange
import Verif.Model.Frames

set_option autoImplicit false

namespace Xls

open Spec

/-- Every date is the next one on the offset. -/
def Offset.Chain (o : Offset) : List Time → Prop
  | [] => True
  | [_] => True
  | a :: b :: rest => o.next a = .ok b ∧ o.Chain (b :: rest)

theorem rangeFrom_chain {o : Offset} {last : Time} : ∀ {n : Nat} {t : Time} {ts : List Time},
    rangeFrom o last n t = .ok ts → o.Chain ts ∧ ∀ x, ts.head? = some x → x = t
  | 0, t, ts, h => by
    unfold rangeFrom at h
    cases h
    exact ⟨trivial, by simp⟩
  | n + 1, t, ts, h => by
    unfold rangeFrom at h
    split at h
    · cases hn : o.next t with
      | error e => rw [hn] at h; cases h
      | ok t' =>
        rw [hn] at h
        dsimp only at h
        cases hr : rangeFrom o last n t' with
        | error e => rw [hr] at h; cases h
        | ok us =>
          rw [hr] at h
          cases h
          obtain ⟨h1, h2⟩ := rangeFrom_chain hr
          refine ⟨?_, by simp⟩
          cases us with
          | nil => trivial
          | cons u us =>
            have := h2 u rfl
            subst this
            exact ⟨hn, h1⟩
    · cases h
      exact ⟨trivial, by simp⟩

/-- The offsets `date_range` uses. -/
def Offset.Proper : Offset → Prop
  | .months _ k => 1 ≤ k
  | _ => True

theorem toOffset_proper {f name : Str} {o : Offset} (h : toOffset f = .ok (name, o)) : o.Proper := by
  unfold toOffset at h
  repeat' split at h
  all_goals first
    | (cases h; done)
    | (cases h; simp [Offset.Proper])

theorem toOffset_name {f g name : Str} {o o' : Offset} (h : toOffset f = .ok (name, o))
    (h' : toOffset g = .ok (name, o')) : o = o' := by
  unfold toOffset at h h'
  repeat' split at h
  all_goals repeat' split at h'
  all_goals first
    | (cases h; done)
    | (cases h'; done)
    | (cases h; cases h'; rfl)
    | (cases h; injection h' with h'; injection h' with h1 h2; exact absurd h1 (by decide))

theorem offset_next_lt {o : Offset} (ho : o.Proper) {t t' : Time} (hv : ValidTime t)
    (h : o.next t = .ok t') : ValidTime t' ∧ t < t' := by
  have hdays : ∀ n : Nat, 1 ≤ n → addDays t n = .ok t' → ValidTime t' ∧ t < t' := by
    intro n hn h
    obtain ⟨h1, h2, h3⟩ := addDays_ok hv h
    refine ⟨h1, (lt_iff_instant hv h1).2 ?_⟩
    unfold instant
    rw [h2, h3]
    omega
  cases o with
  | months a k =>
    obtain ⟨h1, h2, h3, h4⟩ := addMonths_ok hv h
    refine ⟨h1, lt_of_monthCount hv h1 ?_⟩
    have : 1 ≤ k := ho
    omega
  | week => exact hdays 7 (by omega) h
  | day => exact hdays 1 (by omega) h

theorem chain_le_last {o : Offset} (ho : o.Proper) : ∀ {t : Time} {ts : List Time} {z : Time},
    ValidTime t → o.Chain (t :: ts) → (t :: ts).getLast? = some z → t = z ∨ t < z
  | t, [], z, _, _, h => by
    simp only [List.getLast?_singleton, Option.some.injEq] at h
    exact .inl h
  | t, u :: us, z, hv, hc, h => by
    obtain ⟨h1, h2⟩ := hc
    obtain ⟨h3, h4⟩ := offset_next_lt ho hv h1
    rw [List.getLast?_cons_cons] at h
    rcases chain_le_last ho h3 h2 h with e | e
    · exact .inr (e ▸ h4)
    · exact .inr (Time.lt_trans h4 e)

theorem chain_unique {o : Offset} (ho : o.Proper) : ∀ {t : Time} {ts us : List Time} {z : Time},
    ValidTime t → o.Chain (t :: ts) → o.Chain (t :: us) → (t :: ts).getLast? = some z →
    (t :: us).getLast? = some z → ts = us
  | t, [], [], z, _, _, _, _, _ => rfl
  | t, [], u :: us, z, hv, _, h2, h3, h4 => by
    simp only [List.getLast?_singleton, Option.some.injEq] at h3
    subst h3
    obtain ⟨h5, h6⟩ := offset_next_lt ho hv h2.1
    rw [List.getLast?_cons_cons] at h4
    rcases chain_le_last ho h5 h2.2 h4 with e | e
    · rw [e] at h6; exact absurd h6 (Time.lt_irrefl _)
    · exact absurd (Time.lt_trans h6 e) (Time.lt_irrefl _)
  | t, u :: us, [], z, hv, h1, _, h3, h4 => by
    simp only [List.getLast?_singleton, Option.some.injEq] at h4
    subst h4
    obtain ⟨h5, h6⟩ := offset_next_lt ho hv h1.1
    rw [List.getLast?_cons_cons] at h3
    rcases chain_le_last ho h5 h1.2 h3 with e | e
    · rw [e] at h6; exact absurd h6 (Time.lt_irrefl _)
    · exact absurd (Time.lt_trans h6 e) (Time.lt_irrefl _)
  | t, u :: us, u' :: us', z, hv, h1, h2, h3, h4 => by
    have e : u = u' := by
      have := h1.1.symm.trans h2.1
      injection this
    subst e
    rw [List.getLast?_cons_cons] at h3 h4
    rw [chain_unique ho (offset_next_lt ho hv h1.1).1 h1.2 h2.2 h3 h4]

/-- The range comes out of `pandas.date_range`. -/
def Generated (ext : Ext) (pr : PRange) : Prop := ∃ a b f, dateRange ext a b f = .ok pr

theorem generated_chain {ext : Ext} {pr : PRange} (h : Generated ext pr) :
    ∃ f o, toOffset f = .ok (pr.freqstr, o) ∧ o.Chain pr.index := by
  obtain ⟨a, b, f, h⟩ := h
  unfold dateRange at h
  cases hf : toOffset f with
  | error e => rw [hf] at h; cases h
  | ok no =>
    obtain ⟨name, o⟩ := no
    rw [hf] at h
    dsimp only at h
    cases ha : toTimestamp ext a with
    | error e => rw [ha] at h; cases h
    | ok ta =>
      cases hb : toTimestamp ext b with
      | error e => rw [ha, hb] at h; cases h
      | ok tb =>
        rw [ha, hb] at h
        dsimp only at h
        cases hr : o.rollForward ta with
        | error e => rw [hr] at h; cases h
        | ok ra =>
          rw [hr] at h
          dsimp only at h
          split at h
          · cases h
          next ts hts =>
            cases h
            exact ⟨f, o, hf, (rangeFrom_chain hts).1⟩

theorem rangeKey_ok {pr : PRange} {k : Str × Time × Time} (h : rangeKey pr = .ok k) :
    k.1 = pr.freqstr ∧ pr.index.head? = some k.2.1 ∧ pr.index.getLast? = some k.2.2 := by
  unfold rangeKey at h
  split at h
  · next a z ha hz => cases h; exact ⟨rfl, ha, hz⟩
  · cases h

theorem generated_unique {ext : Ext} {p q : PRange} {k : Str × Time × Time} (hp : Generated ext p)
    (hq : Generated ext q) (h1 : rangeKey p = .ok k) (h2 : rangeKey q = .ok k)
    (hv : ValidTime k.2.1) : p = q := by
  obtain ⟨f, o, hf, hc⟩ := generated_chain hp
  obtain ⟨g, o', hg, hc'⟩ := generated_chain hq
  obtain ⟨a1, a2, a3⟩ := rangeKey_ok h1
  obtain ⟨b1, b2, b3⟩ := rangeKey_ok h2
  obtain ⟨pf, pi⟩ := p
  obtain ⟨qf, qi⟩ := q
  dsimp only at *
  have e : pf = qf := a1.symm.trans b1
  subst e
  have eo := toOffset_name hf hg
  subst eo
  cases pi with
  | nil => cases a2
  | cons x pi =>
    cases qi with
    | nil => cases b2
    | cons y qi =>
      simp only [List.head?_cons, Option.some.injEq] at a2 b2
      subst a2
      subst b2
      rw [chain_unique (toOffset_proper hf) hv hc hc' a3 b3]

theorem rangesOf_generated {ext : Ext} {starts ends : List (Cell × Char)} :
    ∀ {fs : List Char} {prs : List PRange}, rangesOf ext starts ends fs = .ok prs →
    ∀ pr ∈ prs, Generated ext pr
  | [], prs, h => by unfold rangesOf at h; cases h; simp
  | f :: fs, prs, h => by
    unfold rangesOf at h
    split at h
    · cases h
    next pr hpr =>
      split at h
      · cases h
      next prs' hprs =>
        cases h
        intro x hx
        rcases List.mem_cons.1 hx with rfl | hx
        · exact ⟨_, _, _, hpr⟩
        · exact rangesOf_generated hprs x hx

theorem seriesRanges_generated {ext : Ext} {s : Sheet} {freq header : Str} {ini stop ta : Int}
    {al : Align} {prs : List PRange} (h : seriesRanges ext s freq ini header stop ta al = .ok prs) :
    ∀ pr ∈ prs, Generated ext pr := by
  unfold seriesRanges at h
  split at h
  · unfold singleRanges at h
    split at h
    · cases h
    split at h
    · cases h
    dsimp only at h
    split at h
    · cases h
    · cases h
    split at h
    · cases h
    next pr hpr =>
      cases h
      intro x hx
      rw [List.mem_singleton] at hx
      subst hx
      exact ⟨_, _, _, hpr⟩
  · split at h
    · unfold multiRanges at h
      split at h
      · cases h
      split at h
      · cases h
      exact rangesOf_generated h
    · cases h

end Xls
