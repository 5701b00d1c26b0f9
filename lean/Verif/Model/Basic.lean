/-
Basic vocabulary of the model: Python strings as `List Char`, exceptions as values, numbers.
-/
import Lean.Elab.Command

set_option autoImplicit false

namespace Xls

/-- Python `str` values are modelled as lists of characters. -/
abbrev Str := List Char

/-- `c!"abc"` is the character list `['a', 'b', 'c']` (so that the kernel can compute with it). -/
syntax:max (name := charListLit) "c!" str : term

open Lean in
macro_rules
  | `(c! $s:str) => do
    let cs : Array (TSyntax `term) :=
      (s.getString.toList.map fun c => (⟨Syntax.mkCharLit c⟩ : TSyntax `term)).toArray
    `(([$cs,*] : List Char))

/-- Exceptions raised by the package or by the libraries it calls. The message strings are not
modelled, only the exception class. Custom classes:
`xlseries/strategies/discover/parameters.py:21-51`, `xlseries/strategies/clean/time_index.py:32-90`,
`xlseries/strategies/clean/parse_time.py:36-93`, `xlseries/strategies/strategies.py:28-31`,
`xlseries/utils/time_manipulation.py:15-23`. -/
inductive Err
  | invalidParameter | criticalParameterMissing | inputParametersNotRecognized
  | timeValueGoingBackwards | timeValueGoingForth | parseTimeImplementationError | sameTimeValue
  | noPossibleTimeValue | timeIsNotComposed | noTimeValue | dayOutOfRange | monthOutOfRange
  | timeIndexNotClean | invalidTimeFrequency | packageDirNotFound
  | noSerializedDataFrameFound
  -- built-in and library classes
  | exception | valueError | typeError | keyError | indexError | attributeError | assertionError
  | notImplementedError | overflowError | nameError | parseError | recursionError
  deriving DecidableEq, Repr

/-! ### Characters -/

/-- Python's `str.isspace` for one character, as used by `str.strip` (all of CPython's
Unicode whitespace table) and by Parsley's builtin `ws` rule. -/
def isSpace (c : Char) : Bool :=
  let n := c.toNat
  (9 ≤ n && n ≤ 13) || (28 ≤ n && n ≤ 32) || n == 133 || n == 160 || n == 5760 ||
  (8192 ≤ n && n ≤ 8202) || n == 8232 || n == 8233 || n == 8239 || n == 8287 || n == 12288

/-- ASCII digits. Parsley's `digit` is `str.isdigit`, applied by the package only to text that
went through `unidecode`, i.e. ASCII text. -/
def isDigit (c : Char) : Bool := 48 ≤ c.toNat && c.toNat ≤ 57

/-- ASCII letters; Parsley's `letter` is `str.isalpha` on ASCII text. -/
def isLetter (c : Char) : Bool :=
  (65 ≤ c.toNat && c.toNat ≤ 90) || (97 ≤ c.toNat && c.toNat ≤ 122)

/-- Upper-case ASCII letter test (column letters). -/
def isUpperLetter (c : Char) : Bool := 65 ≤ c.toNat && c.toNat ≤ 90

/-- `str.upper` on one character. Simplification: ASCII letters only. -/
def upperChar (c : Char) : Char :=
  if 97 ≤ c.toNat ∧ c.toNat ≤ 122 then Char.ofNat (c.toNat - 32) else c

/-- `str.lower` on one character. Simplification: ASCII letters only. -/
def lowerChar (c : Char) : Char :=
  if 65 ≤ c.toNat ∧ c.toNat ≤ 90 then Char.ofNat (c.toNat + 32) else c

/-! ### Strings -/

/-- `str.upper` (ASCII). -/
def upper (s : Str) : Str := s.map upperChar

/-- `str.lower` (ASCII). -/
def lower (s : Str) : Str := s.map lowerChar

/-- `str.capitalize` (ASCII). -/
def capitalize : Str → Str
  | [] => []
  | c :: cs => upperChar c :: lower cs

/-- `str.lstrip()`. -/
def lstrip (s : Str) : Str := s.dropWhile isSpace

/-- `str.strip()`. -/
def strip (s : Str) : Str := (lstrip (lstrip s).reverse).reverse

/-- `str.split(sep)` for a one-character separator: always non-empty. -/
def splitOn (sep : Char) : Str → List Str
  | [] => [[]]
  | c :: cs =>
    if c = sep then [] :: splitOn sep cs
    else match splitOn sep cs with
      | [] => [[c]]
      | w :: ws => (c :: w) :: ws

/-- `sep.join(parts)`. -/
def joinWith (sep : Str) : List Str → Str
  | [] => []
  | [p] => p
  | p :: q :: ps => p ++ sep ++ joinWith sep (q :: ps)

/-- `str.replace(old, new)` for a one-character `old`. -/
def replaceChar (old : Char) (new : Str) (s : Str) : Str :=
  s.flatMap fun c => if c = old then new else [c]

/-- Drop a prefix if present. -/
def stripPrefix? : Str → Str → Option Str
  | [], s => some s
  | _ :: _, [] => none
  | p :: ps, c :: cs => if p = c then stripPrefix? ps cs else none

/-- `str.replace(old, new)` for a non-empty `old`: left-to-right, non-overlapping. The first
argument is fuel; `replaceStr` supplies enough (the length of the string). -/
def replaceFuel (old new : Str) : Nat → Str → Str
  | 0, s => s
  | _ + 1, [] => []
  | n + 1, c :: cs =>
    match stripPrefix? old (c :: cs) with
    | some rest => new ++ replaceFuel old new n rest
    | none => c :: replaceFuel old new n cs

/-- `str.replace(old, new)` for a non-empty `old`. -/
def replaceStr (old new : Str) (s : Str) : Str := replaceFuel old new s.length s

/-! ### Integers as text -/

/-- Value of a digit character. -/
def digitVal (c : Char) : Nat := c.toNat - 48

/-- Digit character of a number below ten. -/
def digitChar (n : Nat) : Char := Char.ofNat (48 + n)

/-- Value of a string of digits. -/
def digitsVal (s : Str) : Nat := s.foldl (fun a c => a * 10 + digitVal c) 0

/-- `str(n)` for a natural number, with fuel (see `natStr`). -/
def natStrFuel : Nat → Nat → Str
  | 0, n => [digitChar (n % 10)]
  | f + 1, n => if n < 10 then [digitChar n] else natStrFuel f (n / 10) ++ [digitChar (n % 10)]

/-- `str(n)` for a natural number. -/
def natStr (n : Nat) : Str := natStrFuel n n

/-- `str(i)` for an integer. -/
def intStr (i : Int) : Str := if i < 0 then '-' :: natStr i.natAbs else natStr i.natAbs

/-- Digits with optional single underscores between them, as `int()` accepts (Python ≥ 3.6);
`prev` says whether the previous character was a digit. -/
def digitsWithUnderscores : Bool → Str → Option Str
  | prev, [] => if prev then some [] else none
  | prev, c :: cs =>
    if isDigit c then (digitsWithUnderscores true cs).map (c :: ·)
    else if c = '_' && prev then
      match cs with
      | [] => none
      | d :: ds => if isDigit d then (digitsWithUnderscores true ds).map (d :: ·) else none
    else none

/-- Python's `int(s)` for a string: surrounding blanks, an optional sign, digits with single
underscores. `none` = `ValueError`. -/
def pyInt (s : Str) : Option Int :=
  match strip s with
  | '-' :: ds => (digitsWithUnderscores false ds).map fun d => -(digitsVal d : Int)
  | '+' :: ds => (digitsWithUnderscores false ds).map fun d => (digitsVal d : Int)
  | ds => (digitsWithUnderscores false ds).map fun d => (digitsVal d : Int)

end Xls
