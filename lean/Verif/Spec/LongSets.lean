/-
What the messages to Sets and Dictionaries mean, whatever their size is.
-/
import Verif.Spec.LongVectors

namespace Knuckle.Spec

open Knuckle.Idx

/-- A number as the 32-bit `int` it is converted to: the one that differs from it by a multiple of 2^32. -/
def low32 (n : Nat) : Int := if n % 4294967296 < 2147483648 then (n % 4294967296 : Nat) else (n % 4294967296 : Nat) - 4294967296

/-- The meaning of the messages to a set with any number of elements: only `size` depends on it (`setMeaning` for the others). -/
noncomputable def anySetMeaning (cfg : Cfg) (l : List Obj) : SetMsg → Ix (List Obj × Str)
  | .size => .ok (l, intStr (low32 l.length))
  | m => told (setMeaning cfg l m)

/-- The same for dictionaries. -/
noncomputable def anyDictMeaning (cfg : Cfg) (l : List (Obj × Obj)) : DictMsg → Ix (List (Obj × Obj) × Str)
  | .size => .ok (l, intStr (low32 l.length))
  | m => told (dictMeaning cfg l m)

end Knuckle.Spec
