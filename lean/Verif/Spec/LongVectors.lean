/-
What the messages to a Vector mean if it has 2^31 elements or more (and less than 2^32).
-/
import Verif.Spec.LongStrings

namespace Knuckle.Spec

open Knuckle.Idx

/-- A position as the 32-bit `int` it is converted to. -/
def wrapped (k : Nat) : Int := if k < 2147483648 then k else (k : Int) - 4294967296

/-- The meaning of the messages to a long vector `l`: its size is a negative number, every index is refused, the ends cannot be accessed by a
number, the loops that count with an `int` do nothing; whatever does not depend on the size works as for other vectors (`vecMeaning`). -/
def longVecMeaning (cfg : Cfg) (l : List Obj) : VecMsg → Ix (List Obj × Str)
  | .containsFrom _ _ => .throws .invalidArgument
  | .atIndex _ => .throws .invalidArgument
  | .firstIndexOfFrom _ _ => .throws .invalidArgument
  | .slice _ => .throws .invalidArgument
  | .sliceTo _ _ => .throws .invalidArgument
  | .popAtIndex _ => .throws .invalidArgument
  | .insert _ _ => .throws .invalidArgument
  | .erase _ => .throws .invalidArgument
  | .eraseTo _ _ => .throws .invalidArgument
  | .removeFirstFrom _ _ => .throws .invalidArgument
  | .replaceFirstFrom _ _ _ => .throws .invalidArgument
  | .size => .ok (l, intStr ((l.length : Int) - 4294967296))
  | .count o => if l.countP (same cfg.eps · o) < 2147483648 then .ok (l, intStr (l.countP (same cfg.eps · o))) else .ub
  | .firstIndexOf o => .ok (l, match l.findIdx? (same cfg.eps · o) with
    | some k => intStr (wrapped k)
    | none => b!"-1")
  | .first n => if 0 ≤ n then .ub else .throws .invalidArgument
  | .last n => if 0 ≤ n then .ub else .throws .invalidArgument
  | .popBack => .ub
  | .removeAll _ => .ok (l, b!"null")
  | .replaceFirst _ _ => .ok (l, b!"null")
  | .replaceAll _ _ => .ok (l, b!"null")
  | m => told (vecMeaning cfg l m)

end Knuckle.Spec
