/-
Requests that a program makes from a fixed text and a text somebody else supplied: a statement with a hole for one argument.
-/
import Verif.Spec.Grammar

namespace Knuckle.Spec

/-- The rest of a statement after an argument: further parts of a keyword message, each after white space, then the
semicolon.  The names of the parts put together are `name`, their arguments are `args`. -/
inductive Rest : Str → Str → List Str → Prop
  | done {w w' : Str} : Spaces w → Spaces w' → Rest (w ++ c!";" :: w') [] []
  | part {w tok w' arg text name : Str} {args : List Str} : Spaces w → w ≠ [] → Token tok → Spaces w' → Argument arg →
      Rest text name args → Rest (w ++ (tok ++ (w' ++ (arg ++ text)))) (tok ++ name) (arg :: args)

/-- Parts of a keyword message, each after white space, up to where the argument of the last one begins. -/
inductive Head : Str → Str → List Str → Prop
  | last {w tok w' : Str} : Spaces w → w ≠ [] → Token tok → Spaces w' → Head (w ++ (tok ++ w')) tok []
  | part {w tok w' arg text name : Str} {args : List Str} : Spaces w → w ≠ [] → Token tok → Spaces w' → Argument arg →
      Head text name args → Head (w ++ (tok ++ (w' ++ (arg ++ text)))) (tok ++ name) (arg :: args)

/-- `Template pre post actor n as m bs`: `pre`, an argument, and `post` make a statement to `actor`; the argument comes
after the arguments `as` and before the arguments `bs`; `n` is the part of the name of the message in `pre`, `m` that in
`post`. -/
def Template (pre post actor n : Str) (as : List Str) (m : Str) (bs : List Str) : Prop :=
  ∃ w h, pre = w ++ (actor ++ h) ∧ Spaces w ∧ Actor actor ∧ Head h n as ∧ Rest post m bs

/-- The text in quotes. -/
def inQuotes (u : Str) : Str := c!"\"" :: (u ++ [c!"\""])

/-- What a careful program does before it puts a text between quotes: a backslash before every quote and every backslash. -/
def withBackslashes : Str → Str
  | [] => []
  | c :: s => if c = c!"\"" ∨ c = c!"\\" then c!"\\" :: c :: withBackslashes s else c :: withBackslashes s

end Knuckle.Spec
