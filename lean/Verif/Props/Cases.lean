/-
Properties C98, C99: checking test cases and choosing strategies by name.
-/
import Verif.Spec.Cases
import Verif.Lemmas.Coords
import Verif.Props.Compare
import Verif.Props.Stored

set_option autoImplicit false

namespace Xls

open Spec

/-! ### C98: checking a result against the expected one -/

theorem compareCase_ok {ps : List (Frame × Frame)} :
    compareCase ps = .ok () ↔ ∀ p ∈ ps, compareFrames p.1 p.2 = .ok () := by
  induction ps with
  | nil => simp [compareCase]
  | cons p ps ih =>
    obtain ⟨f, g⟩ := p
    rw [compareCase]
    cases h : compareFrames f g with
    | error e => simp [h]
    | ok u => cases u; simp [h, ih]

/-- C98. A list of data frames passes exactly when each of them is close to the expected data frame with the
same number. Nothing is said of a data frame without a partner (`C98_count_violated`). -/
theorem C98_pairs_partial {ext : Ext} {fs : Files} {dir : Str} {num : Int} {dfs exp : List Frame}
    (hexp : loadExpected ext fs dir num none = .ok exp) (hd : ∀ f ∈ dfs, ProperFrame f)
    (he : ∀ g ∈ exp, ProperFrame g) :
    checkCase ext fs dir num dfs = .ok () ↔
      ∀ (i : Nat) f g, dfs[i]? = some f → exp[i]? = some g → CloseFrames f g := by
  unfold checkCase
  rw [hexp]
  dsimp only
  rw [compareCase_ok]
  constructor
  · intro h i f g hf hg
    have hm : (f, g) ∈ dfs.zip exp :=
      List.mem_iff_getElem?.2 ⟨i, by rw [List.getElem?_zip_eq_some]; exact ⟨hf, hg⟩⟩
    exact (C68_equal_iff_close (hd f (List.mem_of_getElem? hf)) (he g (List.mem_of_getElem? hg))).1 (h _ hm)
  · rintro h ⟨f, g⟩ hm
    obtain ⟨i, hi⟩ := List.mem_iff_getElem?.1 hm
    rw [List.getElem?_zip_eq_some] at hi
    exact (C68_equal_iff_close (hd f (List.mem_of_getElem? hi.1)) (he g (List.mem_of_getElem? hi.2))).2
      (h i f g hi.1 hi.2)

/-- C98. A list with as many data frames as expected passes exactly when the two lists agree one by one.
Missing: lists of another length (`C98_count_violated`). -/
theorem C98_agrees_partial {ext : Ext} {fs : Files} {dir : Str} {num : Int} {dfs exp : List Frame}
    (hexp : loadExpected ext fs dir num none = .ok exp) (hd : ∀ f ∈ dfs, ProperFrame f)
    (he : ∀ g ∈ exp, ProperFrame g) (hlen : dfs.length = exp.length) :
    checkCase ext fs dir num dfs = .ok () ↔ List.Forall₂ CloseFrames dfs exp := by
  rw [C98_pairs_partial hexp hd he, List.forall₂_iff_get]
  constructor
  · intro h
    refine ⟨hlen, fun i h1 h2 => h i _ _ ?_ ?_⟩ <;> simp
  · rintro ⟨_, h⟩ i f g hf hg
    obtain ⟨h1, rfl⟩ := List.getElem?_eq_some_iff.1 hf
    obtain ⟨h2, rfl⟩ := List.getElem?_eq_some_iff.1 hg
    exact h i h1 h2

/-- C98, violated: the number of data frames is not checked. Any beginning of the expected data frames passes,
the empty list too, and so does anything that follows all the expected ones. -/
theorem C98_count_violated {ext : Ext} {fs : Files} {dir : Str} {num : Int} {exp : List Frame}
    (hexp : loadExpected ext fs dir num none = .ok exp) (he : ∀ g ∈ exp, ProperFrame g) :
    (∀ n, checkCase ext fs dir num (exp.take n) = .ok ()) ∧
    ∀ more, checkCase ext fs dir num (exp ++ more) = .ok () := by
  unfold checkCase
  rw [hexp]
  dsimp only
  have self : ∀ {dfs : List Frame}, (∀ (i : Nat) f g, dfs[i]? = some f → exp[i]? = some g → f = g) →
      compareCase (dfs.zip exp) = .ok () := by
    intro dfs h
    rw [compareCase_ok]
    rintro ⟨f, g⟩ hm
    obtain ⟨i, hi⟩ := List.mem_iff_getElem?.1 hm
    rw [List.getElem?_zip_eq_some] at hi
    rw [h i f g hi.1 hi.2]
    exact C68_reflexive (he g (List.mem_of_getElem? hi.2))
  constructor
  · intro n
    refine self fun i f g hf hg => ?_
    rw [List.getElem?_take] at hf
    split at hf
    · rw [hg] at hf; exact (Option.some.inj hf).symm
    · cases hf
  · intro more
    refine self fun i f g hf hg => ?_
    rw [List.getElem?_append_left (List.getElem?_eq_some_iff.1 hg).1, hg] at hf
    exact (Option.some.inj hf).symm

/-- C98. If the expected result cannot be loaded, the check raises what loading raised. -/
theorem C98_not_loaded {ext : Ext} {fs : Files} {dir : Str} {num : Int} {e : Err} (dfs : List Frame)
    (hexp : loadExpected ext fs dir num none = .error e) : checkCase ext fs dir num dfs = .error e := by
  unfold checkCase
  rw [hexp]

/-- C98. The expected result of a case is what `load_data_frames` gives for the file of the directory that is
named after the case and its special part. -/
theorem C98_file (ext : Ext) (fs : Files) {dir : Str} (num : Int) (special : Option Str) (hne : dir ≠ [])
    (hslash : dir.getLast? ≠ some '/') :
    loadExpected ext fs dir num special =
      loadFrames ext fs (dir ++ c!"/test_case" ++ intStr num ++ special.getD [] ++ c!".xlsx") := by
  unfold loadExpected joinPath caseName
  rw [if_neg (by rintro (h | h); exacts [hne h, hslash h])]
  simp

/-- C98. The workbook and the parameters of a case are opened from the files of their directories that are named in
the same way. -/
theorem C98_case_file {dir : Str} (format : Str) (num : Int) (special : Option Str) (hne : dir ≠ [])
    (hslash : dir.getLast? ≠ some '/') :
    caseFile dir format num special =
      dir ++ c!"/test_case" ++ intStr num ++ special.getD [] ++ c!"." ++ format := by
  unfold caseFile joinPath caseName
  rw [if_neg (by rintro (h | h); exacts [hne h, hslash h])]
  simp

example : caseFile c!"cases/original" c!"xlsx" 5 (some c!"b") = c!"cases/original/test_case5b.xlsx" :=
  C98_case_file c!"xlsx" 5 (some c!"b") (by decide) (by decide)

/-- C98. The path of a case is the path of the file that is loaded for it, for the workbooks and the parameters as
for the expected results. Missing: case 0 (`C98_path_violated`). -/
theorem C98_path_partial (base format : Str) {num : Int} (h : num ≠ 0) :
    casesPath base format (some num) = caseFile base format num none ∧
    ∀ (ext : Ext) (fs : Files), loadExpected ext fs (casesPath base c!"xlsx" none) num none =
      loadFrames ext fs (casesPath base c!"xlsx" (some num)) := by
  unfold loadExpected caseFile casesPath caseName
  simp [h]

example : casesPath c!"cases/original" c!"xlsx" (some 7) = c!"cases/original/test_case7.xlsx" := by decide +kernel

/-- C98, violated: the path of case 0 is the directory. -/
theorem C98_path_violated (base format : Str) : casesPath base format (some 0) = base := rfl

/-- Files with one workbook of two sheets, both with the same monthly data frame. -/
def Sample.caseFiles : Files where
  isFile p := p == c!"exp/test_case7.xlsx"
  isDir p := p == c!"exp"
  sheets p := if p = c!"exp/test_case7.xlsx" then .ok 2 else .error .exception
  glob _ _ := []
  read p i := if p = c!"exp/test_case7.xlsx" ∧ i < 2 then
    .ok ⟨[], (List.range 12).map fun i => ⟨2001, i + 1, 1, 0⟩, [c!"a"], [(List.range 12).map fun i => .fin i]⟩
    else .error .exception

/-- What is loaded from them. -/
def Sample.caseFrame : Frame :=
  ⟨c!"MS", (List.range 12).map fun i => ⟨2001, i + 1, 1, 0⟩, [c!"a"], [(List.range 12).map fun i => .fin i]⟩

theorem Sample.caseFrame_proper : ProperFrame Sample.caseFrame :=
  ⟨by simp [Sample.caseFrame], rfl, by intro d hd; simp [Sample.caseFrame] at hd; subst hd; simp [Sample.caseFrame]⟩

theorem Sample.case_loaded :
    loadExpected Sample.ext0 Sample.caseFiles c!"exp" 7 none = .ok [Sample.caseFrame, Sample.caseFrame] := by
  decide +kernel

example : checkCase Sample.ext0 Sample.caseFiles c!"exp" 7 [Sample.caseFrame, Sample.caseFrame] = .ok () :=
  (C98_agrees_partial Sample.case_loaded (by simp [Sample.caseFrame_proper])
    (by simp [Sample.caseFrame_proper]) rfl).2
    (.cons ((C68_equal_iff_close Sample.caseFrame_proper Sample.caseFrame_proper).1
        (C68_reflexive Sample.caseFrame_proper))
      (.cons ((C68_equal_iff_close Sample.caseFrame_proper Sample.caseFrame_proper).1
        (C68_reflexive Sample.caseFrame_proper)) .nil))

example : checkCase Sample.ext0 Sample.caseFiles c!"exp" 7 [] = .ok () :=
  (C98_count_violated Sample.case_loaded (by simp [Sample.caseFrame_proper])).1 0

example : checkCase Sample.ext0 Sample.caseFiles c!"exp" 8 [Sample.caseFrame] = .error .exception :=
  C98_not_loaded _ (by decide +kernel)

/-! ### C98: files of test cases -/

theorem digit_iff {c : Char} : isDigit c = true ↔ '0' ≤ c ∧ c ≤ '9' := by
  unfold isDigit
  simp only [Bool.and_eq_true, decide_eq_true_eq]
  exact Iff.rfl

theorem takeWhile_append_head {p : Char → Bool} {a b : Str} (ha : ∀ c ∈ a, p c = true)
    (hb : ∀ c ∈ b.head?, p c = false) : (a ++ b).takeWhile p = a ∧ (a ++ b).dropWhile p = b := by
  induction a with
  | nil =>
    cases b with
    | nil => simp
    | cons x b => simp [hb x (by simp)]
  | cons x a ih =>
    have := ih fun c hc => ha c (by simp [hc])
    simp [ha x (by simp), this]

theorem natStr_append_inj {m n : Nat} {s t : Str} (hs : ∀ c ∈ s.head?, isDigit c = false)
    (ht : ∀ c ∈ t.head?, isDigit c = false) (h : natStr m ++ s = natStr n ++ t) : m = n ∧ s = t := by
  obtain ⟨a1, a2⟩ := takeWhile_append_head (isDigit_natStr m) hs
  obtain ⟨b1, b2⟩ := takeWhile_append_head (isDigit_natStr n) ht
  rw [h] at a1 a2
  have e : natStr m = natStr n := a1.symm.trans b1
  exact ⟨by rw [← digitsVal_natStr m, e, digitsVal_natStr], a2.symm.trans b2⟩

theorem natStr_not_minus (n : Nat) (s t : Str) : natStr n ++ s ≠ '-' :: t := by
  intro h
  cases hn : natStr n with
  | nil => exact natStr_ne_nil n hn
  | cons c cs =>
    rw [hn] at h
    have hc := isDigit_natStr n c (by rw [hn]; simp)
    rw [(List.cons.inj h).1] at hc
    exact absurd hc (by decide)

theorem intStr_append_inj {m n : Int} {s t : Str} (hs : ∀ c ∈ s.head?, isDigit c = false)
    (ht : ∀ c ∈ t.head?, isDigit c = false) (h : intStr m ++ s = intStr n ++ t) : m = n ∧ s = t := by
  unfold intStr at h
  split at h <;> split at h
  · obtain ⟨h1, h2⟩ := natStr_append_inj hs ht (List.cons.inj h).2
    exact ⟨by omega, h2⟩
  · exact absurd h.symm (natStr_not_minus _ _ _)
  · exact absurd h (natStr_not_minus _ _ _)
  · obtain ⟨h1, h2⟩ := natStr_append_inj hs ht h
    exact ⟨by omega, h2⟩

/-- C98. Two test cases with the same file have the same number and the same special case, if the special cases
do not begin with a digit. -/
theorem C98_own_file_partial {m n : Int} {s t : Option Str} {format : Str} (hs : PlainSpecial s)
    (ht : PlainSpecial t) (h : caseName m s format = caseName n t format) : m = n ∧ s.getD [] = t.getD [] := by
  have key : ∀ u : Option Str, PlainSpecial u → ∀ c ∈ ((u.getD []) ++ c!"." ++ format).head?, isDigit c = false := by
    intro u hu c hc
    cases u with
    | none =>
      simp at hc
      subst hc
      decide
    | some w =>
      cases w with
      | nil =>
        simp at hc
        subst hc
        decide
      | cons x w =>
        simp at hc
        subst hc
        have := hu _ rfl x (by simp)
        rw [← digit_iff] at this
        simpa using this
  unfold caseName at h
  simp only [List.append_assoc] at h
  have h := List.append_cancel_left h
  obtain ⟨h1, h2⟩ := intStr_append_inj (by simpa using key s hs) (by simpa using key t ht) h
  exact ⟨h1, List.append_cancel_right h2⟩

example : caseName 4 (some c!"_b") c!"xlsx" ≠ caseName 4 (some c!"b") c!"xlsx" := fun h =>
  absurd (C98_own_file_partial (by intro s h; cases h; intro c hc; simp at hc; subst hc; decide)
    (by intro s h; cases h; intro c hc; simp at hc; subst hc; decide) h).2 (by decide)

/-- C98, violated: special case `1` of case 1 has the file of case 11. -/
theorem C98_own_file_violated : caseName 1 (some c!"1") c!"json" = caseName 11 none c!"json" := by decide

/-! ### C99: strategies -/

theorem strLe_cons (x y : Char) (a b : Str) :
    strLe (x :: a) (y :: b) = (decide (x.toNat < y.toNat) || (x.toNat == y.toNat && strLe a b)) := by
  rw [strLe]
  by_cases h : x = y
  · subst h; simp
  · have : x.toNat ≠ y.toNat := fun k => h (Char.toNat_inj.1 k)
    simp [h, this]

theorem strLe_iff {a b : Str} : strLe a b = true ↔ Alphabetical a b := by
  induction a generalizing b with
  | nil => simp [strLe, Alphabetical]
  | cons x a ih =>
    cases b with
    | nil => simp [strLe, Alphabetical]
    | cons y b =>
      rw [strLe_cons]
      simp only [Bool.or_eq_true, decide_eq_true_eq, Bool.and_eq_true, beq_iff_eq, ih]
      constructor
      · rintro (h | ⟨h, h'⟩)
        · exact .inr ⟨[], x, y, a, b, rfl, rfl, h⟩
        · have hxy : x = y := Char.toNat_inj.1 h
          subst hxy
          rcases h' with ⟨t, rfl⟩ | ⟨p, u, v, s, t, rfl, rfl, h⟩
          · exact .inl ⟨t, rfl⟩
          · exact .inr ⟨x :: p, u, v, s, t, rfl, rfl, h⟩
      · rintro (⟨t, h⟩ | ⟨p, u, v, s, t, h1, h2, h⟩)
        · obtain ⟨rfl, rfl⟩ := List.cons.inj h
          exact .inr ⟨rfl, .inl ⟨t, rfl⟩⟩
        · cases p with
          | nil =>
            obtain ⟨rfl, rfl⟩ := List.cons.inj h1
            obtain ⟨rfl, rfl⟩ := List.cons.inj h2
            exact .inl h
          | cons z p =>
            obtain ⟨rfl, rfl⟩ := List.cons.inj h1
            obtain ⟨rfl, rfl⟩ := List.cons.inj h2
            exact .inr ⟨rfl, .inr ⟨p, u, v, s, t, rfl, rfl, h⟩⟩

theorem strLe_trans {a b c : Str} (h1 : strLe a b = true) (h2 : strLe b c = true) : strLe a c = true := by
  induction a generalizing b c with
  | nil => rfl
  | cons x a ih =>
    cases b with
    | nil => cases h1
    | cons y b =>
      cases c with
      | nil => cases h2
      | cons z c =>
        simp only [strLe_cons, Bool.or_eq_true, decide_eq_true_eq, Bool.and_eq_true, beq_iff_eq] at *
        rcases h1 with h1 | ⟨h1, h1'⟩ <;> rcases h2 with h2 | ⟨h2, h2'⟩
        · left; omega
        · left; omega
        · left; omega
        · exact .inr ⟨by omega, ih h1' h2'⟩

theorem strLe_total (a b : Str) : (strLe a b || strLe b a) = true := by
  induction a generalizing b with
  | nil => rfl
  | cons x a ih =>
    cases b with
    | nil => rfl
    | cons y b =>
      have := ih b
      simp only [strLe_cons, Bool.or_eq_true, decide_eq_true_eq, Bool.and_eq_true, beq_iff_eq] at *
      rcases Nat.lt_trichotomy x.toNat y.toNat with h | h | h
      · simp [h]
      · rcases this with h' | h'
        · simp [h, h']
        · simp [h, h']
      · simp [h]

theorem strLe_antisymm {a b : Str} (h1 : strLe a b = true) (h2 : strLe b a = true) : a = b := by
  induction a generalizing b with
  | nil =>
    cases b with
    | nil => rfl
    | cons y b => cases h2
  | cons x a ih =>
    cases b with
    | nil => cases h1
    | cons y b =>
      simp only [strLe_cons, Bool.or_eq_true, decide_eq_true_eq, Bool.and_eq_true, beq_iff_eq] at *
      rcases h1 with h1 | ⟨h1, h1'⟩ <;> rcases h2 with h2 | ⟨h2, h2'⟩
      · omega
      · omega
      · omega
      · rw [Char.toNat_inj.1 h1, ih h1' h2']

theorem isStrategy_iff {c : PyClass} : isStrategy c = true ↔ MeantForUse c := by
  unfold isStrategy MeantForUse
  have h : c.name.take 4 = c!"Base" ↔ ∃ t, c.name = c!"Base" ++ t := by
    constructor
    · intro h
      exact ⟨c.name.drop 4, by rw [← h, List.take_append_drop]⟩
    · rintro ⟨t, h⟩
      rw [h]
      rfl
  simp only [Bool.and_eq_true, bne_iff_ne, ne_eq, Bool.not_eq_true']
  rw [h]
  tauto

/-- C99. The strategies of a module are exactly its classes that are meant for use, each once, in alphabetical
order, however the module orders them. -/
theorem C99_strategies (ns : List PyClass) :
    (∀ c, c ∈ strategiesOf ns ↔ c ∈ ns ∧ MeantForUse c) ∧
    (∀ c, (strategiesOf ns).count c = if c ∈ strategiesOf ns then ns.count c else 0) ∧
    (strategiesOf ns).Pairwise fun a b => Alphabetical a.name b.name := by
  have hp : (moduleClasses ns).Perm ns := List.perm_insertionSort _ _
  have hmem : ∀ c, c ∈ strategiesOf ns ↔ c ∈ ns ∧ MeantForUse c := by
    intro c
    unfold strategiesOf
    rw [List.mem_filter, isStrategy_iff, hp.mem_iff]
  refine ⟨hmem, ?_, ?_⟩
  · intro c
    split
    · next h =>
      unfold strategiesOf
      rw [List.count_filter (isStrategy_iff.2 ((hmem c).1 h).2), hp.count_eq]
    · next h => exact List.count_eq_zero.2 h
  · unfold strategiesOf
    refine List.Pairwise.filter _ ?_
    have : (moduleClasses ns).Pairwise fun a b => strLe a.name b.name = true := by
      have : IsTrans PyClass fun a b => strLe a.name b.name = true := ⟨fun _ _ _ => strLe_trans⟩
      have : Std.Total fun a b : PyClass => strLe a.name b.name = true :=
        ⟨fun a b => by simpa using strLe_total a.name b.name⟩
      exact List.pairwise_insertionSort _ ns
    exact this.imp fun h => strLe_iff.1 h

/-- C99. The order in which a module defines its classes does not matter. -/
theorem C99_order {ns ns' : List PyClass} (h : ns.Perm ns') (hn : (ns.map PyClass.name).Nodup) :
    strategiesOf ns = strategiesOf ns' := by
  have hp : (strategiesOf ns).Perm (strategiesOf ns') := by
    unfold strategiesOf
    refine List.Perm.filter _ ?_
    exact ((List.perm_insertionSort _ _).trans h).trans (List.perm_insertionSort _ _).symm
  refine hp.eq_of_pairwise (le := fun a b => Alphabetical a.name b.name) ?_ (C99_strategies ns).2.2
    (C99_strategies ns').2.2
  intro a b ha hb h1 h2
  have hab : a.name = b.name := strLe_antisymm (strLe_iff.2 h1) (strLe_iff.2 h2)
  have ha' := (((C99_strategies ns).1 a).1 ha).1
  have hb' := (((C99_strategies ns').1 b).1 hb).1
  exact List.inj_on_of_nodup_map hn ha' (h.mem_iff.2 hb') hab

/-- C99. A class added to a module is tried at its place in the alphabet; the others keep their order. -/
theorem C99_added (ns : List PyClass) (c : PyClass) (hn : ((c :: ns).map PyClass.name).Nodup)
    (hc : MeantForUse c) :
    ∃ before after, strategiesOf ns = before ++ after ∧ strategiesOf (c :: ns) = before ++ c :: after ∧
      (∀ a ∈ before, Alphabetical a.name c.name) ∧ ∀ a ∈ after, Alphabetical c.name a.name := by
  have hmem : c ∈ strategiesOf (c :: ns) := ((C99_strategies (c :: ns)).1 c).2 ⟨by simp, hc⟩
  obtain ⟨before, after, e⟩ := List.append_of_mem hmem
  have hs := (C99_strategies (c :: ns)).2.2
  rw [e] at hs
  have hp : (strategiesOf (c :: ns)).Perm (c :: strategiesOf ns) := by
    unfold strategiesOf
    have h1 : (moduleClasses (c :: ns)).Perm (c :: moduleClasses ns) :=
      (List.perm_insertionSort _ _).trans ((List.perm_insertionSort _ ns).symm.cons c)
    have h2 := h1.filter isStrategy
    rwa [List.filter_cons_of_pos (isStrategy_iff.2 hc)] at h2
  have hp' : (before ++ after).Perm (strategiesOf ns) := by
    rw [e] at hp
    exact (List.perm_cons c).1 (List.perm_middle.symm.trans hp)
  have hn' : (ns.map PyClass.name).Nodup := (List.nodup_cons.1 hn).2
  refine ⟨before, after, ?_, e, ?_, ?_⟩
  · refine (hp'.eq_of_pairwise (le := fun a b => Alphabetical a.name b.name) ?_ ?_
      (C99_strategies ns).2.2).symm
    · intro a b ha hb h1 h2
      have hab : a.name = b.name := strLe_antisymm (strLe_iff.2 h1) (strLe_iff.2 h2)
      exact List.inj_on_of_nodup_map hn' (((C99_strategies ns).1 a).1 (hp'.mem_iff.1 ha)).1
        (((C99_strategies ns).1 b).1 hb).1 hab
    · exact hs.sublist ((List.sublist_cons_self c after).append_left before)
  · intro a ha
    exact (List.pairwise_append.1 hs).2.2 a ha c (by simp)
  · intro a ha
    exact (List.pairwise_cons.1 (List.pairwise_append.1 hs).2.1).1 a ha

example : ∃ before after, strategiesOf parseTimeClasses = before ++ after ∧
    strategiesOf (⟨c!"ParseComposedWeek", false⟩ :: parseTimeClasses) =
      before ++ ⟨c!"ParseComposedWeek", false⟩ :: after ∧ before.length = 8 := by
  exact ⟨(strategiesOf parseTimeClasses).take 8, (strategiesOf parseTimeClasses).drop 8, by decide +kernel⟩

example : ((⟨c!"ParseComposedWeek", false⟩ :: parseTimeClasses).map PyClass.name).Nodup ∧
    MeantForUse ⟨c!"ParseComposedWeek", false⟩ :=
  ⟨by decide +kernel, rfl, (by rintro ⟨t, h⟩; cases h), by decide⟩

/-- C99. What the package itself uses: the twelve parsers, in the order in which they are tried, and the only
scraper. -/
theorem C99_used :
    (strategiesOf parseTimeClasses).map PyClass.name = parsers.map Parser.className ∧
    (strategiesOf scraperClasses).map PyClass.name = [c!"ParameterDiscovery"] := by decide +kernel

end Xls
