/-
What safe mode reports.
-/
import Verif.Spec.Scraper
import Verif.Spec.Compare

set_option autoImplicit false

namespace Xls.Spec

/-- The results of the attempts that work, in their order. -/
inductive WorkingResults (ext : Ext) (s : Sheet) : List Params → List (List Frame) → Prop
  | nil : WorkingResults ext s [] []
  | works {p p' : Params} {fs : List Frame} {ps : List Params} {all : List (List Frame)} :
    Works ext s p fs p' → WorkingResults ext s ps all → WorkingResults ext s (p :: ps) (fs :: all)
  | fails {p : Params} {ps : List Params} {all : List (List Frame)} :
    (∀ fs p', ¬ Works ext s p fs p') → WorkingResults ext s ps all → WorkingResults ext s (p :: ps) all

/-- The result `fs` is taken for a repetition of `gs`: neither is a single data frame, and the data frames are equal
(in the sense of `CloseFrames`) as far as both results go. Or one of them has no data frames. -/
def TakenFor (fs gs : List Frame) : Prop :=
  fs = [] ∨ gs = [] ∨ (2 ≤ fs.length ∧ 2 ≤ gs.length ∧ ∀ fg ∈ fs.zip gs, CloseFrames fg.1 fg.2)

/-- The results `out` that are reported of the results `all`: each, unless it is taken for a repetition of one
reported before. -/
inductive Reported : List (List Frame) → List (List Frame) → Prop
  | nil : Reported [] []
  | new {all out : List (List Frame)} {fs : List Frame} :
    Reported all out → (∀ gs ∈ out, ¬ TakenFor fs gs) → Reported (all ++ [fs]) (out ++ [fs])
  | repetition {all out : List (List Frame)} {fs gs : List Frame} :
    Reported all out → gs ∈ out → TakenFor fs gs → Reported (all ++ [fs]) out

end Xls.Spec
