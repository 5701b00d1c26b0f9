/-
Lemmas about numbers in the cells of a time index.
-/
import Verif.Spec.NumberCells
import Verif.Lemmas.TimeText3
import Verif.Lemmas.Coords
import Mathlib.Data.Rat.Floor
import Mathlib.Algebra.Order.Floor.Ring

set_option autoImplicit false

namespace Xls

open Spec

theorem truncRat_eq {q : Rat} {n : Nat} (h1 : (n : Rat) ≤ q) (h2 : q < n + 1) : truncRat q = n := by
  unfold truncRat
  have h0 : (0 : Rat) ≤ q := le_trans (by exact_mod_cast Nat.zero_le n) h1
  rw [if_pos h0]
  have : ⌊q⌋ = (n : Int) := by
    rw [Int.floor_eq_iff]
    exact ⟨by exact_mod_cast h1, by exact_mod_cast h2⟩
  exact this

theorem intStr_nat (n : Nat) : intStr (n : Int) = natStr n := by
  unfold intStr
  rw [if_neg (by omega), Int.natAbs_natCast]

theorem digitChar_eq : ∀ n < 10, digitChar n = digit n := by decide

theorem natStr_four {n : Nat} (h1 : 1000 ≤ n) (h2 : n ≤ 9999) : natStr n = four n := by
  rw [natStr_big (by omega), natStr_big (by omega), natStr_big (by omega), natStr_small (by omega)]
  simp only [List.singleton_append, List.cons_append, List.nil_append, four]
  rw [digitChar_eq _ (by omega), digitChar_eq _ (by omega), digitChar_eq _ (by omega), digitChar_eq _ (by omega)]
  congr 2
  · omega
  · congr 2
    omega

/-- What a composed parser makes of the cell. -/
theorem parseWith_number {ext : Ext} {p : Parser} {freq : Str} {c : Cell} {n : Nat} {last : Option Time}
    {next : Cell} {t : Time} (hp : p ≠ .simple) (hw : WholePart c n)
    (h : parseComposed ext p (natStr n) last = .ok t) : parseWith ext p freq c last next = .ok t := by
  have hs : ∀ s, parseStrWith ext p freq last next s = parseComposed ext p s last := by
    intro s
    unfold parseStrWith
    cases p <;> first | exact absurd rfl hp | rfl
  unfold parseWith parseCell
  cases c with
  | int i =>
    have : i = n := hw
    subst this
    dsimp only
    rw [hs, intStr_nat, h]
  | float x =>
    cases x with
    | nan => cases hw
    | fin q =>
      dsimp only [floatIntStr]
      rw [truncRat_eq hw.1 hw.2, intStr_nat, hs, h]
  | _ => cases hw

/-- Which composed parsers accept the cell. -/
theorem accepts_number {ext : Ext} {p : Parser} {sp : SParams} {c : Cell} {n : Nat} (hp : p ≠ .simple)
    (hc : sp.timeComposed = true) (hw : WholePart c n) :
    accepts ext p sp.timeComposed sp.frequency c = .ok (decide (sp.frequency = p.freq) &&
      (isOk (parseElements ext p (natStr n)) || match c with
        | .float (.fin q) => isOk (parseElements ext p (ext.reprFloat (.fin q)))
        | _ => false)) := by
  have hs : ∀ s, acceptsStr ext p sp.timeComposed sp.frequency s =
      (decide (sp.frequency = p.freq) && isOk (parseElements ext p s)) := by
    intro s
    unfold acceptsStr
    rw [hc]
    cases p <;> first | exact absurd rfl hp | simp [beq_eq_decide]
  unfold accepts
  cases c with
  | int i =>
    have : i = n := hw
    subst this
    dsimp only [cellStr]
    rw [hs, intStr_nat, Bool.or_false]
  | float x =>
    cases x with
    | nan => cases hw
    | fin q =>
      dsimp only [floatIntStr]
      rw [truncRat_eq hw.1 hw.2, intStr_nat, hs, hs]
      cases decide (sp.frequency = p.freq) <;> simp [Bool.or_comm]
  | _ => cases hw

theorem searchParser_number {ext : Ext} {sp : SParams} {c : Cell} {last : Option Time} {next : Cell}
    {old : Option Parser} {p : Parser} (post : List Parser) : ∀ (pre : List Parser),
    (∀ q ∈ pre, accepts ext q sp.timeComposed sp.frequency c = .ok false) →
    accepts ext p sp.timeComposed sp.frequency c = .ok true →
    searchParser ext sp c last next old (pre ++ p :: post) = (parseWith ext p sp.frequency c last next, some p)
  | [], _, hp => by
    rw [List.nil_append, searchParser, hp]
  | q :: pre, hpre, hp => by
    rw [List.cons_append, searchParser, hpre q (by simp)]
    exact searchParser_number post pre (fun r hr => hpre r (by simp [hr])) hp

/-- The choice of the parser for a number. -/
theorem parse_select_number {ext : Ext} {sp : SParams} {c : Cell} {n : Nat} {last : Option Time} {next : Cell}
    {parser : Option Parser} {p : Parser} {t : Time} (hp : p ≠ .simple)
    (hc : sp.timeComposed = true) (hf : sp.frequency = p.freq) (hw : WholePart c n)
    (hacc : isOk (parseElements ext p (natStr n)) = true ∨
      ∃ s, ShownAs ext c s ∧ isOk (parseElements ext p s) = true)
    (hpre : ∀ q ∈ parsers.takeWhile (fun q => decide (q ≠ p)), q.freq = p.freq →
      isOk (parseElements ext q (natStr n)) = false ∧ ∀ s, ShownAs ext c s → isOk (parseElements ext q s) = false)
    (hpar : parser = none ∨ parser = some p)
    (ht : parseWith ext p sp.frequency c last next = .ok t) :
    parseTimeValue ext sp parser c last next = (.ok t, some p) := by
  rcases hpar with rfl | rfl
  · unfold parseTimeValue
    simp only
    have hsplit : parsers = (parsers.takeWhile fun q => decide (q ≠ p)) ++
        p :: ((parsers.dropWhile fun q => decide (q ≠ p)).tail) := by
      cases p <;> first | exact absurd rfl hp | decide
    rw [hsplit, searchParser_number, ht]
    · intro q hq
      have hqs : q ≠ .simple := by
        revert hq
        cases p <;> first | exact absurd rfl hp | (revert q; decide)
      rw [accepts_number hqs hc hw, hf]
      by_cases hfr : q.freq = p.freq
      · obtain ⟨h1, h2⟩ := hpre q hq hfr
        rw [h1, hfr]
        cases c with
        | float x =>
          cases x with
          | nan => cases hw
          | fin r => simp [h2 _ ⟨r, rfl, rfl⟩]
        | _ => simp
      · have : decide (p.freq = q.freq) = false := by simpa using fun h => hfr h.symm
        rw [this]
        simp
    · rw [accepts_number hp hc hw, hf]
      rcases hacc with h | ⟨s, ⟨r, rfl, rfl⟩, h⟩
      · simp [h]
      · simp [h]
  · unfold parseTimeValue
    simp only
    rw [ht]

end Xls
