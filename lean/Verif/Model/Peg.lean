/-
Parsing expression grammars: the fragment of Parsley 1.3 the package uses.
-/
import Verif.Model.Basic

set_option autoImplicit false

namespace Xls

/-- Outcome of a grammar rule at a position of the input. `fail` is Parsley's `ParseError`, which
ordered choice catches; `exc` is any other exception raised by an action, which it does not. -/
inductive PRes (α : Type) where
  | fail
  | exc (e : Err)
  | ok (a : α) (rest : Str)
  deriving DecidableEq, Repr

/-- A grammar rule. -/
def P (α : Type) : Type := Str → PRes α

namespace P

variable {α β : Type}

/-- An action without input. -/
def pure (a : α) : P α := fun s => .ok a s

/-- Sequencing with a binding, `rule:x ...`. -/
def bind (p : P α) (f : α → P β) : P β := fun s =>
  match p s with
  | .fail => .fail
  | .exc e => .exc e
  | .ok a rest => f a rest

instance : Monad P where
  pure := P.pure
  bind := P.bind

/-- Ordered choice `p | q` (ometa `_or`: only `ParseError` is caught, the input is restored). -/
def or (p q : P α) : P α := fun s =>
  match p s with
  | .fail => q s
  | r => r

/-- A semantic predicate `?(...)` that does not hold. -/
def refuse : P α := fun _ => .fail

/-- `rule?` -/
def opt (p : P α) : P (Option α) := fun s =>
  match p s with
  | .fail => .ok none s
  | .exc e => .exc e
  | .ok a rest => .ok (some a) rest

/-- `anything:x ?(x ...)`: one character satisfying a test. -/
def sat (t : Char → Bool) : P Char := fun s =>
  match s with
  | [] => .fail
  | c :: cs => if t c then .ok c cs else .fail

/-- `'c'` -/
def char (c : Char) : P Char := sat (· == c)

/-- `<rule*>` for a one-character rule: greedy, never fails. -/
def star (t : Char → Bool) : P Str := fun s => .ok (s.takeWhile t) (s.dropWhile t)

/-- `<rule{lo, hi}>` for a one-character rule: greedy. -/
def rep (lo hi : Nat) (t : Char → Bool) : P Str := fun s =>
  let k := min (s.takeWhile t).length hi
  if k < lo then .fail else .ok (s.take k) (s.drop k)

/-- Parsley's builtin `ws`: any amount of white space. -/
def ws : P Str := star isSpace

/-- An action that may raise, `-> f(x)`. -/
def lift (r : Except Err α) : P α := fun s =>
  match r with
  | .ok a => .ok a s
  | .error e => .exc e

/-- `grammar(s).rule()`: the rule has to consume the whole input. -/
def run (p : P α) (s : Str) : Except Err α :=
  match p s with
  | .fail => .error .parseError
  | .exc e => .error e
  | .ok a [] => .ok a
  | .ok _ (_ :: _) => .error .parseError

end P

end Xls
