/-
Lemmas on grammar combinators and on digits.
-/
import Verif.Model.ParseTime
import Verif.Spec.TimeText

set_option autoImplicit false

namespace Xls
open Spec

namespace P
variable {α β : Type}

theorem bind_ok {p : P α} {f : α → P β} {s r : Str} {a : α} (h : p s = .ok a r) :
    (p >>= f) s = f a r := by
  show P.bind p f s = _
  unfold P.bind
  rw [h]

theorem bind_fail {p : P α} {f : α → P β} {s : Str} (h : p s = .fail) : (p >>= f) s = .fail := by
  show P.bind p f s = _
  unfold P.bind
  rw [h]

theorem bind_exc {p : P α} {f : α → P β} {s : Str} {e : Err} (h : p s = .exc e) :
    (p >>= f) s = .exc e := by
  show P.bind p f s = _
  unfold P.bind
  rw [h]

theorem pure_ok (a : α) (s : Str) : (Pure.pure a : P α) s = .ok a s := rfl

theorem or_ok {p q : P α} {s r : Str} {a : α} (h : p s = .ok a r) : (P.or p q) s = .ok a r := by
  unfold P.or; rw [h]

theorem or_fail {p q : P α} {s : Str} (h : p s = .fail) : (P.or p q) s = q s := by
  unfold P.or; rw [h]

theorem opt_ok {p : P α} {s r : Str} {a : α} (h : p s = .ok a r) :
    (P.opt p) s = .ok (some a) r := by
  unfold P.opt; rw [h]

theorem opt_fail {p : P α} {s : Str} (h : p s = .fail) : (P.opt p) s = .ok none s := by
  unfold P.opt; rw [h]

end P

/-- The text ends here or goes on with a character that fails the test. -/
def Stops (t : Char → Bool) (s : Str) : Prop := ∀ c ∈ s.head?, t c = false

theorem Stops.nil (t : Char → Bool) : Stops t [] := by intro c h; cases h

theorem Stops.cons {t : Char → Bool} {c : Char} {s : Str} (h : t c = false) : Stops t (c :: s) := by
  intro d hd; simp at hd; subst hd; exact h

theorem takeWhile_split {t : Char → Bool} {u v : Str} (h : ∀ c ∈ u, t c = true) (hv : Stops t v) :
    (u ++ v).takeWhile t = u ∧ (u ++ v).dropWhile t = v := by
  induction u with
  | nil =>
    cases v with
    | nil => exact ⟨rfl, rfl⟩
    | cons c v =>
      have := hv c (by simp)
      simp [this]
  | cons c u ih =>
    have hc := h c (by simp)
    obtain ⟨i1, i2⟩ := ih fun d hd => h d (by simp [hd])
    simp [hc, i1, i2]

theorem star_ok {t : Char → Bool} {u v : Str} (h : ∀ c ∈ u, t c = true) (hv : Stops t v) :
    P.star t (u ++ v) = .ok u v := by
  unfold P.star
  rw [(takeWhile_split h hv).1, (takeWhile_split h hv).2]

theorem star_nil {t : Char → Bool} {v : Str} (hv : Stops t v) : P.star t v = .ok [] v :=
  star_ok (u := []) (by simp) hv

theorem ws_ok {u v : Str} (h : Blank u) (hv : Stops isSpace v) : P.ws (u ++ v) = .ok u v :=
  star_ok h hv

theorem ws_nil {v : Str} (hv : Stops isSpace v) : P.ws v = .ok [] v := star_nil hv

theorem star_any (s : Str) : P.star anyChar s = .ok s [] := by
  have := star_ok (t := anyChar) (u := s) (v := []) (fun _ _ => rfl) (Stops.nil _)
  simpa using this

theorem rep_ok {t : Char → Bool} {lo hi : Nat} {u v : Str} (h : ∀ c ∈ u, t c = true)
    (h1 : lo ≤ u.length) (h2 : u.length ≤ hi) (hv : u.length = hi ∨ Stops t v) :
    P.rep lo hi t (u ++ v) = .ok u v := by
  have key : min ((u ++ v).takeWhile t).length hi = u.length := by
    rcases hv with hv | hv
    · have : u.length ≤ ((u ++ v).takeWhile t).length := by
        rw [List.takeWhile_append_of_pos h]; simp
      omega
    · rw [(takeWhile_split h hv).1]; omega
  unfold P.rep
  simp only [key]
  rw [if_neg (by omega)]
  simp

theorem rep_fail {t : Char → Bool} {lo hi : Nat} {u v : Str} (h : ∀ c ∈ u, t c = true)
    (h1 : u.length < lo) (hv : Stops t v) : P.rep lo hi t (u ++ v) = .fail := by
  unfold P.rep
  simp only [(takeWhile_split h hv).1]
  rw [if_pos (by omega)]

theorem rep_fail_nil {t : Char → Bool} {lo hi : Nat} {v : Str} (h1 : 0 < lo) (hv : Stops t v) :
    P.rep lo hi t v = .fail := rep_fail (u := []) (by simp) (by simpa using h1) hv

theorem sat_ok {t : Char → Bool} {c : Char} {s : Str} (h : t c = true) :
    P.sat t (c :: s) = .ok c s := by
  simp [P.sat, h]

theorem sat_fail {t : Char → Bool} {s : Str} (h : Stops t s) : P.sat t s = .fail := by
  cases s with
  | nil => rfl
  | cons c s => simp [P.sat, h c (by simp)]

theorem char_ok (c : Char) (s : Str) : P.char c (c :: s) = .ok c s := sat_ok (by simp)

theorem run_ok {α : Type} {p : P α} {s : Str} {a : α} (h : p s = .ok a []) : p.run s = .ok a := by
  unfold P.run; rw [h]

theorem run_left {α : Type} {p : P α} {s : Str} {a : α} {c : Char} {r : Str}
    (h : p s = .ok a (c :: r)) : p.run s = .error .parseError := by
  unfold P.run; rw [h]

theorem run_fail {α : Type} {p : P α} {s : Str} (h : p s = .fail) : p.run s = .error .parseError := by
  unfold P.run; rw [h]

theorem run_exc {α : Type} {p : P α} {s : Str} {e : Err} (h : p s = .exc e) :
    p.run s = .error e := by
  unfold P.run; rw [h]

/-! ### digits -/

theorem isDigit_iff (c : Char) : isDigit c = true ↔ c ∈ digits := by
  unfold isDigit
  constructor
  · intro h
    simp only [Bool.and_eq_true, decide_eq_true_eq] at h
    have hc : c = Char.ofNat c.toNat := (Char.ofNat_toNat c).symm
    have : ∀ n, 48 ≤ n → n ≤ 57 → Char.ofNat n ∈ digits := by
      intro n h1 h2
      have : n = 48 ∨ n = 49 ∨ n = 50 ∨ n = 51 ∨ n = 52 ∨ n = 53 ∨ n = 54 ∨ n = 55 ∨ n = 56 ∨ n = 57 := by
        omega
      rcases this with h | h | h | h | h | h | h | h | h | h <;> subst h <;> decide
    rw [hc]; exact this _ h.1 h.2
  · intro h
    revert h; revert c; decide

theorem digit_mem (n : Nat) : digit n ∈ digits := by
  unfold digit
  rw [List.getD_eq_getElem?_getD]
  cases h : digits[n]? with
  | none => decide
  | some c => exact List.mem_of_getElem? h

theorem isDigit_digit (n : Nat) : isDigit (digit n) = true := (isDigit_iff _).mpr (digit_mem n)

theorem digitVal_digit {n : Nat} (h : n < 10) : digitVal (digit n) = n := by
  have : n = 0 ∨ n = 1 ∨ n = 2 ∨ n = 3 ∨ n = 4 ∨ n = 5 ∨ n = 6 ∨ n = 7 ∨ n = 8 ∨ n = 9 := by omega
  rcases this with h | h | h | h | h | h | h | h | h | h <;> subst h <;> decide

theorem isDigit_four (n : Nat) : ∀ c ∈ four n, isDigit c = true := by
  intro c hc
  simp only [four, List.mem_cons, List.not_mem_nil, or_false] at hc
  rcases hc with rfl | rfl | rfl | rfl <;> exact isDigit_digit _

theorem isDigit_two (n : Nat) : ∀ c ∈ two n, isDigit c = true := by
  intro c hc
  simp only [two, List.mem_cons, List.not_mem_nil, or_false] at hc
  rcases hc with rfl | rfl <;> exact isDigit_digit _

theorem digitsVal_four {n : Nat} (h : n < 10000) : digitsVal (four n) = n := by
  simp only [digitsVal, four, List.foldl_cons, List.foldl_nil]
  rw [digitVal_digit (by omega), digitVal_digit (by omega), digitVal_digit (by omega),
    digitVal_digit (by omega)]
  omega

theorem digitsVal_two {n : Nat} (h : n < 100) : digitsVal (two n) = n := by
  simp only [digitsVal, two, List.foldl_cons, List.foldl_nil]
  rw [digitVal_digit (by omega), digitVal_digit (by omega)]
  omega

theorem Stops.digit {t : Char → Bool} (ht : ∀ c ∈ digits, t c = false) {n : Nat} {s : Str} :
    Stops t (digit n :: s) := Stops.cons (ht _ (digit_mem n))

theorem Stops.four {t : Char → Bool} (ht : ∀ c ∈ digits, t c = false) {n : Nat} {s : Str} :
    Stops t (four n ++ s) := Stops.cons (ht _ (digit_mem _))

theorem Stops.two {t : Char → Bool} (ht : ∀ c ∈ digits, t c = false) {n : Nat} {s : Str} :
    Stops t (two n ++ s) := Stops.cons (ht _ (digit_mem _))

/-! ### character classes -/

theorem Stops.append {t : Char → Bool} {u v : Str} (hu : ∀ c ∈ u, t c = false) (hv : Stops t v) :
    Stops t (u ++ v) := by
  cases u with
  | nil => exact hv
  | cons c u => exact Stops.cons (hu c (by simp))

theorem Stops.all {t : Char → Bool} {u : Str} (hu : ∀ c ∈ u, t c = false) : Stops t u := by
  have := Stops.append hu (Stops.nil t); simpa using this

/-- A rule whose result leaves a suffix of the input, and that raises no exception. -/
def Tame {α : Type} (p : P α) : Prop := ∀ s, p s = .fail ∨ ∃ a r, p s = .ok a r ∧ r <:+ s

theorem Tame.star (t : Char → Bool) : Tame (P.star t) := by
  intro s; right; exact ⟨_, _, rfl, List.dropWhile_suffix _⟩

theorem Tame.sat (t : Char → Bool) : Tame (P.sat t) := by
  intro s
  cases s with
  | nil => exact .inl rfl
  | cons c s =>
    by_cases h : t c = true
    · right; exact ⟨_, _, sat_ok h, List.suffix_cons _ _⟩
    · left; exact sat_fail (Stops.cons (by simpa using h))

theorem Tame.rep (lo hi : Nat) (t : Char → Bool) : Tame (P.rep lo hi t) := by
  intro s
  unfold P.rep
  simp only
  split
  · exact .inl rfl
  · right; exact ⟨_, _, rfl, List.drop_suffix _ _⟩

theorem Tame.pure {α : Type} (a : α) : Tame (Pure.pure a : P α) := by
  intro s; right; exact ⟨a, s, rfl, List.suffix_refl _⟩

theorem Tame.bind {α β : Type} {p : P α} {f : α → P β} (hp : Tame p) (hf : ∀ a, Tame (f a)) :
    Tame (p >>= f) := by
  intro s
  rcases hp s with h | ⟨a, r, h, hr⟩
  · exact .inl (P.bind_fail h)
  · rw [P.bind_ok h]
    rcases hf a r with h' | ⟨b, r', h', hr'⟩
    · exact .inl h'
    · right; exact ⟨b, r', h', hr'.trans hr⟩

theorem Tame.or {α : Type} {p q : P α} (hp : Tame p) (hq : Tame q) : Tame (P.or p q) := by
  intro s
  rcases hp s with h | ⟨a, r, h, hr⟩
  · rw [P.or_fail h]; exact hq s
  · right; exact ⟨a, r, P.or_ok h, hr⟩

theorem Tame.opt {α : Type} {p : P α} (hp : Tame p) (s : Str) :
    ∃ a r, P.opt p s = .ok a r ∧ r <:+ s := by
  rcases hp s with h | ⟨a, r, h, hr⟩
  · exact ⟨_, _, P.opt_fail h, List.suffix_refl _⟩
  · exact ⟨_, _, P.opt_ok h, hr⟩

theorem Tame.opt' {α : Type} {p : P α} (hp : Tame p) : Tame (P.opt p) := by
  intro s; right; exact Tame.opt hp s

theorem tame_ref : Tame gRef := by
  unfold gRef
  refine Tame.or ?_ ?_
  · exact Tame.bind (Tame.star _) fun _ => Tame.bind (Tame.sat _) fun _ =>
      Tame.bind (Tame.rep _ _ _) fun _ => Tame.bind (Tame.sat _) fun _ =>
      Tame.bind (Tame.star _) fun _ => Tame.pure _
  · exact Tame.bind (Tame.sat _) fun _ => Tame.pure _

/-- At most three characters are left: everything is consumed. -/
theorem rep_any {s : Str} (h : s.length ≤ 3) : P.rep 0 3 anyChar s = .ok s [] := by
  have := rep_ok (t := anyChar) (lo := 0) (hi := 3) (u := s) (v := []) (fun _ _ => rfl) (by omega) h
    (.inr (Stops.nil _))
  simpa using this

/-- A reference in parentheses is read by the rule of most grammars. -/
theorem ref_ok {s w v : Str} (h : IsRef s) (hw : Blank w) (hv : Stops isSpace v) :
    gRef (s ++ w ++ v) = .ok () v := by
  obtain ⟨ds, h1, h2, h3, rfl⟩ := h
  unfold gRef
  apply P.or_ok
  simp only [List.append_assoc, List.cons_append, List.nil_append]
  rw [P.bind_ok (ws_nil (Stops.cons (by decide)))]
  rw [P.bind_ok (char_ok _ _)]
  rw [P.bind_ok (rep_ok (u := ds) (fun c hc => (isDigit_iff c).mpr (h3 c hc)) h1 h2
    (.inr (Stops.cons (by decide))))]
  rw [P.bind_ok (char_ok _ _)]
  rw [P.bind_ok (ws_ok hw hv)]
  rfl

theorem ref_star (v : Str) : gRef ('*' :: v) = .ok () v := by
  unfold gRef
  rw [P.or_fail]
  · rw [P.bind_ok (char_ok _ _)]; rfl
  · rw [P.bind_ok (ws_nil (Stops.cons (by decide)))]
    exact P.bind_fail (sat_fail (Stops.cons (by decide)))

/-- No reference here: after blanks there is no parenthesis, and no star comes first. -/
theorem ref_fail {w v : Str} (hw : Blank w) (hv : Stops isSpace v) (hp : Stops (· == '(') v)
    (hs : Stops (· == '*') (w ++ v)) : gRef (w ++ v) = .fail := by
  unfold gRef
  rw [P.or_fail]
  · exact P.bind_fail (sat_fail hs)
  · rw [P.bind_ok (ws_ok hw hv)]
    exact P.bind_fail (sat_fail hp)

theorem ref_fail_nil {v : Str} (hv : Stops isSpace v) (hp : Stops (· == '(') v)
    (hs : Stops (· == '*') v) : gRef v = .fail := ref_fail (w := []) (by simp [Blank]) hv hp hs

end Xls
