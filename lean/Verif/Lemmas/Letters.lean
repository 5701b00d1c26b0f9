/-
The grammars of months and years do not tell capital from small letters.
-/
import Verif.Spec.Rewritten
import Verif.Lemmas.Coords
import Verif.Model.ParseTime

set_option autoImplicit false

namespace Xls

open Spec

/-! ### Characters -/

theorem lowerChar_cases {c d : Char} (h : lowerChar c = lowerChar d) :
    c = d ∨ (65 ≤ c.toNat ∧ c.toNat ≤ 90 ∧ d.toNat = c.toNat + 32) ∨
      (65 ≤ d.toNat ∧ d.toNat ≤ 90 ∧ c.toNat = d.toNat + 32) := by
  unfold lowerChar at h
  split at h
  next h1 =>
    split at h
    next h2 =>
      left
      have := congrArg Char.toNat h
      rw [toNat_ofNat (by omega), toNat_ofNat (by omega)] at this
      exact Char.toNat_inj.1 (by omega)
    next h2 =>
      right; left
      have := congrArg Char.toNat h
      rw [toNat_ofNat (by omega)] at this
      omega
  next h1 =>
    split at h
    next h2 =>
      right; right
      have := congrArg Char.toNat h
      rw [toNat_ofNat (by omega)] at this
      omega
    next h2 => exact .inl h

theorem upperChar_letters {c d : Char} (h : lowerChar c = lowerChar d) : upperChar c = upperChar d := by
  rcases lowerChar_cases h with rfl | ⟨h1, h2, h3⟩ | ⟨h1, h2, h3⟩
  · rfl
  · unfold upperChar
    rw [if_neg (by omega), if_pos (by omega), h3]
    apply Char.toNat_inj.1
    rw [toNat_ofNat (by omega)]
    omega
  · unfold upperChar
    rw [if_pos (by omega), if_neg (by omega), h3]
    apply Char.toNat_inj.1
    rw [toNat_ofNat (by omega)]
    omega

/-- The test gives the same for a capital letter and its small one. -/
def Blind (t : Char → Bool) : Prop := ∀ c d, lowerChar c = lowerChar d → t c = t d

theorem blind_of {t : Char → Bool}
    (h : ∀ c d : Char, 65 ≤ c.toNat → c.toNat ≤ 90 → d.toNat = c.toNat + 32 → t c = t d) : Blind t := by
  intro c d hcd
  rcases lowerChar_cases hcd with rfl | ⟨h1, h2, h3⟩ | ⟨h1, h2, h3⟩
  · rfl
  · exact h c d h1 h2 h3
  · exact (h d c h1 h2 h3).symm

theorem blind_not {t : Char → Bool} (h : Blind t) : Blind fun c => !t c := fun c d hcd => by
  show (!t c) = (!t d)
  rw [h c d hcd]

theorem blind_or {t u : Char → Bool} (h : Blind t) (h' : Blind u) : Blind fun c => t c || u c := fun c d hcd => by
  show (t c || u c) = (t d || u d)
  rw [h c d hcd, h' c d hcd]

theorem blind_char {x : Char} (h : isLetter x = false) : Blind (· == x) := by
  have hx : ¬ ((65 ≤ x.toNat ∧ x.toNat ≤ 90) ∨ (97 ≤ x.toNat ∧ x.toNat ≤ 122)) := by
    simp [isLetter] at h
    omega
  refine blind_of fun c d h1 h2 h3 => ?_
  have e1 : (c == x) = false := beq_eq_false_iff_ne.2 fun h => by subst h; omega
  have e2 : (d == x) = false := beq_eq_false_iff_ne.2 fun h => by subst h; omega
  rw [e1, e2]

theorem blind_digit : Blind isDigit := blind_of fun c d h1 h2 h3 => by
  have e1 : isDigit c = false := by unfold isDigit; rw [Bool.and_eq_false_iff]; right; simp; omega
  have e2 : isDigit d = false := by unfold isDigit; rw [Bool.and_eq_false_iff]; right; simp; omega
  rw [e1, e2]

theorem blind_letter : Blind isLetter := blind_of fun c d h1 h2 h3 => by
  have e1 : isLetter c = true := by unfold isLetter; simp; omega
  have e2 : isLetter d = true := by unfold isLetter; simp; omega
  rw [e1, e2]

theorem blind_space : Blind isSpace := blind_of fun c d h1 h2 h3 => by
  have e1 : isSpace c = false := by unfold isSpace; simp; omega
  have e2 : isSpace d = false := by unfold isSpace; simp; omega
  rw [e1, e2]

theorem blind_any : Blind anyChar := fun _ _ _ => rfl

theorem blind_notDigit : Blind notDigit := blind_not blind_digit

theorem blind_notDOrP : Blind notDOrP :=
  blind_not (blind_or (blind_or blind_digit (blind_char (by decide))) (blind_char (by decide)))

theorem blind_sepM : Blind isSepM :=
  blind_or (blind_or (blind_or (blind_char (by decide)) (blind_char (by decide))) (blind_char (by decide)))
    (blind_char (by decide))

/-! ### Texts -/

theorem sameLetters_cons {c d : Char} {s t : Str} : SameLetters (c :: s) (d :: t) ↔
    lowerChar c = lowerChar d ∧ SameLetters s t := by
  unfold SameLetters lower
  simp

theorem sameLetters_length {s t : Str} (h : SameLetters s t) : s.length = t.length := by
  have := congrArg List.length h
  simpa [lower] using this

theorem sameLetters_takeWhile {p : Char → Bool} (hp : Blind p) : ∀ {s t : Str}, SameLetters s t →
    SameLetters (s.takeWhile p) (t.takeWhile p) ∧ SameLetters (s.dropWhile p) (t.dropWhile p)
  | [], [], _ => ⟨rfl, rfl⟩
  | [], _ :: _, h => by cases h
  | _ :: _, [], h => by cases h
  | c :: s, d :: t, h => by
    obtain ⟨h1, h2⟩ := sameLetters_cons.1 h
    rw [List.takeWhile_cons, List.takeWhile_cons, List.dropWhile_cons, List.dropWhile_cons, hp c d h1]
    split
    · obtain ⟨k1, k2⟩ := sameLetters_takeWhile hp h2
      exact ⟨sameLetters_cons.2 ⟨h1, k1⟩, k2⟩
    · exact ⟨rfl, h⟩

theorem sameLetters_take {s t : Str} (h : SameLetters s t) (k : Nat) :
    SameLetters (s.take k) (t.take k) ∧ SameLetters (s.drop k) (t.drop k) := by
  unfold SameLetters lower at *
  constructor
  · rw [List.map_take, List.map_take, h]
  · rw [List.map_drop, List.map_drop, h]

theorem sameLetters_digits : ∀ {s t : Str}, SameLetters s t → (∀ c ∈ s, isDigit c = true) → s = t
  | [], [], _, _ => rfl
  | [], _ :: _, h, _ => by cases h
  | _ :: _, [], h, _ => by cases h
  | c :: s, d :: t, h, hs => by
    obtain ⟨h1, h2⟩ := sameLetters_cons.1 h
    have hc : 48 ≤ c.toNat ∧ c.toNat ≤ 57 := by simpa [isDigit] using hs c (by simp)
    have : c = d := by
      rcases lowerChar_cases h1 with h | ⟨_, _, _⟩ | ⟨_, _, _⟩
      · exact h
      · omega
      · omega
    rw [this, sameLetters_digits h2 fun x hx => hs x (by simp [hx])]

theorem capitalize_letters {s t : Str} (h : SameLetters s t) : capitalize s = capitalize t := by
  cases s with
  | nil =>
    cases t with
    | nil => rfl
    | cons d t => cases h
  | cons c s =>
    cases t with
    | nil => cases h
    | cons d t =>
      obtain ⟨h1, h2⟩ := sameLetters_cons.1 h
      show upperChar c :: lower s = upperChar d :: lower t
      rw [upperChar_letters h1, show lower s = lower t from h2]

/-! ### Grammars -/

/-- Two outcomes of rules: the same failure, or related results and the same rest apart from capital letters. -/
inductive SameRes {α : Type} (Q : α → α → Prop) : PRes α → PRes α → Prop
  | fail : SameRes Q .fail .fail
  | exc (e : Err) : SameRes Q (.exc e) (.exc e)
  | ok {a b : α} {r r' : Str} (h : Q a b) (hr : SameLetters r r') : SameRes Q (.ok a r) (.ok b r')

/-- The two rules give related results on texts that are the same apart from capital letters. -/
def RuleLike {α : Type} (Q : α → α → Prop) (p q : P α) : Prop := ∀ s t, SameLetters s t → SameRes Q (p s) (q t)

section
variable {α β : Type} {Q : α → α → Prop} {Q' : β → β → Prop}

theorem RuleLike.pure {a b : α} (h : Q a b) : RuleLike Q (Pure.pure a) (Pure.pure b) := fun _ _ hs => .ok h hs

theorem RuleLike.bind {p q : P α} {f g : α → P β} (h : RuleLike Q p q) (h' : ∀ a b, Q a b → RuleLike Q' (f a) (g b)) :
    RuleLike Q' (p >>= f) (q >>= g) := by
  intro s t hs
  show SameRes Q' (P.bind p f s) (P.bind q g t)
  have h1 := h s t hs
  unfold P.bind
  revert h1
  rcases p s with _ | e | ⟨a, r⟩ <;> rcases q t with _ | e' | ⟨b, r'⟩ <;> intro h1 <;> cases h1
  · exact .fail
  · exact .exc e
  next h2 h3 => exact h' a b h2 r r' h3

theorem RuleLike.or {p q p' q' : P α} (h : RuleLike Q p q) (h' : RuleLike Q p' q') :
    RuleLike Q (P.or p p') (P.or q q') := by
  intro s t hs
  have h1 := h s t hs
  unfold P.or
  revert h1
  rcases p s with _ | e | ⟨a, r⟩ <;> rcases q t with _ | e' | ⟨b, r'⟩ <;> intro h1 <;> cases h1
  · exact h' s t hs
  · exact .exc e
  next h2 h3 => exact .ok h2 h3

/-- Results of an optional rule. -/
def OptLike (Q : α → α → Prop) : Option α → Option α → Prop
  | none, none => True
  | some a, some b => Q a b
  | _, _ => False

theorem RuleLike.opt {p q : P α} (h : RuleLike Q p q) : RuleLike (OptLike Q) (P.opt p) (P.opt q) := by
  intro s t hs
  have h1 := h s t hs
  unfold P.opt
  revert h1
  rcases p s with _ | e | ⟨a, r⟩ <;> rcases q t with _ | e' | ⟨b, r'⟩ <;> intro h1 <;> cases h1
  · exact .ok trivial hs
  · exact .exc e
  next h2 h3 => exact .ok h2 h3

theorem RuleLike.refuse : RuleLike Q (P.refuse : P α) P.refuse := fun _ _ _ => .fail

theorem RuleLike.lift (r : Except Err α) : RuleLike Eq (P.lift r) (P.lift r) := by
  intro s t hs
  unfold P.lift
  cases r with
  | error e => exact .exc e
  | ok a => exact .ok rfl hs

end

theorem RuleLike.sat {t : Char → Bool} (h : Blind t) :
    RuleLike (fun c d => lowerChar c = lowerChar d) (P.sat t) (P.sat t) := by
  intro s u hs
  unfold P.sat
  cases s with
  | nil =>
    cases u with
    | nil => exact .fail
    | cons d u => cases hs
  | cons c s =>
    cases u with
    | nil => cases hs
    | cons d u =>
      obtain ⟨h1, h2⟩ := sameLetters_cons.1 hs
      dsimp only
      rw [h c d h1]
      split
      · exact .ok h1 h2
      · exact .fail

theorem RuleLike.char {x : Char} (h : isLetter x = false) :
    RuleLike (fun c d => lowerChar c = lowerChar d) (P.char x) (P.char x) := RuleLike.sat (blind_char h)

theorem RuleLike.star {t : Char → Bool} (h : Blind t) : RuleLike SameLetters (P.star t) (P.star t) := by
  intro s u hs
  obtain ⟨h1, h2⟩ := sameLetters_takeWhile h hs
  exact .ok h1 h2

theorem RuleLike.ws : RuleLike SameLetters P.ws P.ws := RuleLike.star blind_space

theorem RuleLike.rep {t : Char → Bool} (h : Blind t) (lo hi : Nat) :
    RuleLike SameLetters (P.rep lo hi t) (P.rep lo hi t) := by
  intro s u hs
  unfold P.rep
  dsimp only
  rw [← sameLetters_length (sameLetters_takeWhile h hs).1]
  split
  · exact .fail
  · obtain ⟨h1, h2⟩ := sameLetters_take hs (min (s.takeWhile t).length hi)
    exact .ok h1 h2

theorem RuleLike.digits (lo hi : Nat) : RuleLike Eq (P.rep lo hi isDigit) (P.rep lo hi isDigit) := by
  intro s u hs
  unfold P.rep
  dsimp only
  rw [← sameLetters_length (sameLetters_takeWhile blind_digit hs).1]
  split
  · exact .fail
  · obtain ⟨h1, h2⟩ := sameLetters_take hs (min (s.takeWhile isDigit).length hi)
    refine .ok (sameLetters_digits h1 fun c hc => ?_) h2
    have : s.take (min (s.takeWhile isDigit).length hi) <+: s.takeWhile isDigit := by
      refine List.prefix_of_prefix_length_le (List.take_prefix _ _) (List.takeWhile_prefix _) ?_
      rw [List.length_take]
      omega
    exact List.all_eq_true.1 List.all_takeWhile c (this.subset hc)

theorem sameRes_run {α : Type} {p q : P α} (h : RuleLike Eq p q) {s t : Str} (hs : SameLetters s t) :
    p.run s = q.run t := by
  have h1 := h s t hs
  unfold P.run
  revert h1
  rcases p s with _ | e | ⟨a, r⟩ <;> rcases q t with _ | e' | ⟨b, r'⟩ <;> intro h1 <;> cases h1
  · rfl
  · rfl
  next h2 h3 =>
    subst h2
    cases r with
    | nil =>
      cases r' with
      | nil => rfl
      | cons _ _ => cases h3
    | cons _ _ =>
      cases r' with
      | nil => cases h3
      | cons _ _ => rfl

theorem ref_like : RuleLike Eq gRef gRef := by
  unfold gRef
  refine .or ?_ ?_
  · exact .bind .ws fun _ _ _ => .bind (.char (by decide)) fun _ _ _ => .bind (.digits 1 3) fun _ _ _ =>
      .bind (.char (by decide)) fun _ _ _ => .bind .ws fun _ _ _ => .pure rfl
  · exact .bind (.char (by decide)) fun _ _ _ => .pure rfl

theorem month1Y_like : RuleLike Eq gMonth1Y gMonth1Y :=
  .bind .ws fun _ _ _ => .bind (.digits 2 4) fun _ _ h => .bind .ws fun _ _ _ => .pure h

theorem month1M_like : RuleLike SameLetters gMonth1M gMonth1M :=
  .bind .ws fun _ _ _ => .bind (.rep blind_letter 3 50) fun _ _ h => .bind (.opt (.char (by decide))) fun _ _ _ =>
    .pure h

theorem month1Sep_like : RuleLike Eq gMonth1Sep gMonth1Sep :=
  .bind .ws fun _ _ _ => .bind (.sat blind_any) fun a b h => .bind .ws fun _ _ _ => by
    rw [blind_sepM a b h]
    split
    · exact .pure rfl
    · exact .refuse

theorem monthStr_letters (ext : Ext) {a b : Str} (h : SameLetters a b) : monthStrToNum ext a = monthStrToNum ext b := by
  unfold monthStrToNum
  rw [capitalize_letters h]

theorem month1_like (ext : Ext) : RuleLike Eq (gMonth1 ext) (gMonth1 ext) := by
  unfold gMonth1
  refine .or ?_ (.or ?_ ?_)
  · exact .bind month1Y_like fun y y' hy => .bind (.opt ref_like) fun _ _ _ => .bind (.opt month1Sep_like) fun _ _ _ =>
      .bind month1M_like fun m m' hm => .bind (.star blind_any) fun _ _ _ => by
        subst hy
        exact .bind (.lift _) fun _ _ h => .pure (by rw [h, monthStr_letters ext hm])
  · exact .bind month1M_like fun m m' hm => .bind (.opt ref_like) fun _ _ _ => .bind (.opt month1Sep_like) fun _ _ _ =>
      .bind month1Y_like fun y y' hy => .bind (.star blind_any) fun _ _ _ => by
        subst hy
        exact .bind (.lift _) fun _ _ h => .pure (by rw [h, monthStr_letters ext hm])
  · exact .bind month1M_like fun m m' hm => .bind (.star blind_any) fun _ _ _ =>
      .pure (by rw [monthStr_letters ext hm])

theorem month2Y_like : RuleLike Eq gMonth2Y gMonth2Y :=
  .bind .ws fun _ _ _ => .bind (.digits 4 4) fun _ _ h => .bind .ws fun _ _ _ => .pure h

theorem month2M_like : RuleLike Eq gMonth2M gMonth2M :=
  .bind .ws fun _ _ _ => .bind (.digits 1 2) fun _ _ h => .bind .ws fun _ _ _ => .pure (by rw [h])

theorem month2_like : RuleLike Eq gMonth2 gMonth2 := by
  unfold gMonth2
  refine .or ?_ (.or ?_ ?_)
  · exact .bind month2Y_like fun _ _ h => .bind (.star blind_notDigit) fun _ _ _ => .bind month2M_like fun _ _ h' =>
      .bind (.star blind_any) fun _ _ _ => .pure (by rw [h, h'])
  · exact .bind month2M_like fun _ _ h => .bind (.star blind_notDigit) fun _ _ _ => .bind month2Y_like fun _ _ h' =>
      .bind (.star blind_any) fun _ _ _ => .pure (by rw [h, h'])
  · exact .bind month2M_like fun _ _ h => .bind (.star blind_any) fun _ _ _ => .pure (by rw [h])

theorem yearRef_like : RuleLike Eq gYearRef gYearRef :=
  .bind (.star blind_notDOrP) fun _ _ _ => .bind (.char (by decide)) fun _ _ _ => .bind (.digits 1 3) fun _ _ _ =>
    .bind (.char (by decide)) fun _ _ _ => .bind (.star blind_notDOrP) fun _ _ _ => .pure rfl

theorem year1_like : RuleLike Eq gYear1 gYear1 :=
  .bind (.opt yearRef_like) fun _ _ _ => .bind (.star blind_notDOrP) fun _ _ _ => .bind (.digits 4 4) fun _ _ h =>
    .bind (.star blind_notDOrP) fun _ _ _ => .bind (.opt yearRef_like) fun _ _ _ => .pure (by rw [h])

theorem year2_like : RuleLike Eq gYear2 gYear2 :=
  .bind (.opt yearRef_like) fun _ _ _ => .bind (.digits 4 4) fun _ _ h => .bind (.char (by decide)) fun _ _ _ =>
    .bind (.digits 2 2) fun _ _ _ => .bind (.opt yearRef_like) fun _ _ _ => .pure (by rw [h])

/-- The grammars of months and years give the same for texts that differ in capital letters only. -/
theorem parseElements_letters (ext : Ext) {p : Parser} (hp : p.freq = c!"M" ∨ p.freq = c!"A") {s t : Str}
    (h : SameLetters s t) : parseElements ext p s = parseElements ext p t := by
  cases p with
  | month1 => exact sameRes_run (month1_like ext) h
  | month2 => exact sameRes_run month2_like h
  | year1 => exact sameRes_run year1_like h
  | year2 => exact sameRes_run year2_like h
  | _ => exact absurd hp (by decide)

end Xls
