/-
What the messages to a String mean if its value has 2^31 bytes or more (and less than 2^32).
-/
import Verif.Model.Indexed
import Verif.Spec.Messages

namespace Knuckle.Spec

open Knuckle.Idx

/-- An outcome of `Spec/Messages.lean` as one of a piece of C++ with indices. -/
def told {σ : Type} : Result σ → Ix (σ × Str)
  | .gives v reply => .ok (v, reply)
  | .refuses => .throws .invalidArgument
  | .undefined => .ub

/-- The meaning of the messages to a long string `v`: it reads as the empty string, its length as a negative number, every index is refused, the
last byte cannot be accessed; whatever does not depend on the length works as for other strings (`strMeaning`). -/
def longMeaning (v : Str) : StrMsg → Ix (Str × Str)
  | .get => .ok (v, b!"\"\"")
  | .length => .ok (v, intStr ((v.length : Int) - 4294967296))
  | .atIndex _ => .throws .invalidArgument
  | .first n => if 0 ≤ n then .ok (v, b!"\"\"") else .throws .invalidArgument
  | .last n => if 0 ≤ n then .ok (v, b!"\"\"") else .throws .invalidArgument
  | .substring _ => .throws .invalidArgument
  | .substringTo _ _ => .throws .invalidArgument
  | .popAtIndex _ => .throws .invalidArgument
  | .insert _ _ => .throws .invalidArgument
  | .erase _ => .throws .invalidArgument
  | .eraseTo _ _ => .throws .invalidArgument
  | .popBack => .ub
  | .endsWith w => if w = [] then .ok (v, b!"true") else .ub
  | .popFront => if v.length = 2147483648 then .ub else told (strMeaning v .popFront)
  | m => told (strMeaning v m)

end Knuckle.Spec
