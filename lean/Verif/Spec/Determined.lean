/-
What a call depends on.
-/
import Verif.Spec.LeftOut
import Verif.Spec.Description

set_option autoImplicit false

namespace Xls.Spec

/-- What a caller passes stands for these parameters: an object with this content, or a dictionary or file from
which such an object is made. -/
def GivenWith (given : Given) (w : World) (p : Params) : Prop :=
  (∃ pr, given = .object pr ∧ w.params pr = p) ∨ ∃ x, given = .other x ∧ Params.new x = .ok p

/-- What the caller gets: the answer and the name of the worksheet, or the exception. -/
def outcome (call : Except Err (Answer × Str × Nat) × World) : Except Err (Answer × Str) :=
  call.1.map fun x => (x.1, x.2.1)

end Xls.Spec
