/-
Taking something out of a variable.
-/
import Verif.Spec.Questions
import Verif.Spec.Messages

namespace Knuckle.Spec

/-- `TakesOut p name i i' r`: the message `name` takes one element out of the Vector, or one character out of the String, `i`: the first, the last, or one in
the middle.  What is left is `i'`, and `r` is the printed form of what was taken (floats with `p` decimals). -/
inductive TakesOut (p : Int) : Str → Inst → Inst → Str → Prop
  | first {t o l} : TakesOut p b!"popFront" (.vector t (o :: l)) (.vector t l) (o.repr p)
  | last {t o l} : TakesOut p b!"popBack" (.vector t (l ++ [o])) (.vector t l) (o.repr p)
  | middle {t o l l'} : TakesOut p b!"popAtIndex:" (.vector t (l ++ o :: l')) (.vector t (l ++ l')) (o.repr p)
  | firstChar {x v} : TakesOut p b!"popFront" (.string (x :: v)) (.string v) [c!"'", x, c!"'"]
  | lastChar {x v} : TakesOut p b!"popBack" (.string (v ++ [x])) (.string v) [c!"'", x, c!"'"]
  | middleChar {x v v'} : TakesOut p b!"popAtIndex:" (.string (v ++ x :: v')) (.string (v ++ v')) [c!"'", x, c!"'"]

/-- The messages that take something out. -/
def Pops (name : Str) : Prop := name = b!"popFront" ∨ name = b!"popBack" ∨ name = b!"popAtIndex:"

end Knuckle.Spec
