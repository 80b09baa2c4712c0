/-
`StringInstance` (`src/instance.cpp:715-1051`) once more, with the `int` indices of the C++ as in `Verif.Model.Indexed`: `int(_value.size())` wraps
around, `operator[]` is not checked, `substr`, `insert` and `erase` throw `std::out_of_range`.

All operators assign `_value` only as their last action, so if one throws, the value is the old one.  Simplification: an operator returns the new
value and the reply.
-/
import Verif.Model.Indexed
import Verif.Model.Instance

namespace Knuckle.Idx

/-- What the other model says, for the parts without indices. -/
def lift {α : Type} : Res α → Ix α
  | .ok a => .ok a
  | .err e => .throws e
  | .ub => .ub

/-- The ternary `is_integer_value(s) ? atoi(s) : atof(s)`, e.g. `src/instance.cpp:384`. -/
def numArg (s : Str) : Ix Fl := do
  if ← isIntegerValue s then lift (do .ok (ofInt64 (← atoi s))) else .ok (atof s)

/-- `IntegerInstance(value).value()`, `src/instance.cpp:381-385`. -/
def integerLit (s : Str) : Ix Int := do
  if ← Ix.and (Ix.not (isIntegerValue s)) (Ix.not (isFloatValue s)) then .throws .invalidArgument
  else
    let x ← numArg s
    lift x.toInt

/-- `unescape(value.substr(1, int(value.size()) - 2), '"')`, e.g. `src/instance.cpp:718`. -/
def unquote (s : Str) : Ix Str := do
  let n ← int (size s - 2)
  let t ← substr2 s 1 n
  unescape t c!"\""

/-- `StringInstance(value).value()`, `src/instance.cpp:715-719`; also `op_set`, `src/instance.cpp:816-823`. -/
def stringLit (s : Str) : Ix Str := do
  if ← Ix.not (isStringValue s) then .throws .invalidArgument else unquote s

/-- The character in a character literal, e.g. `src/instance.cpp:954-956`. -/
def characterLit (s : Str) : Ix Byte := do
  if ← Ix.not (isCharacterValue s) then .throws .invalidArgument else «at» s 1

/-- `"\"" + escape(v, '"') + "\""`, e.g. `src/instance.cpp:750-752`. -/
def quoted (v : Str) : Ix Str := do
  let e ← escape v c!"\""
  .ok (c!"\"" :: (e ++ [c!"\""]))

/-- `_value.insert(index, w)`. -/
def insertAt (v : Str) (i : Int) (w : Str) : Ix Str :=
  if toSize i ≤ v.length then .ok (v.take (toSize i) ++ (w ++ v.drop (toSize i))) else .outOfRange

/-- `_value.erase(index)`. -/
def erase1 (v : Str) (i : Int) : Ix Str := if toSize i ≤ v.length then .ok (v.take (toSize i)) else .outOfRange

/-- `_value.erase(index, n)`. -/
def erase2 (v : Str) (i n : Int) : Ix Str :=
  if toSize i ≤ v.length then .ok (v.take (toSize i) ++ v.drop (toSize i + toSize n)) else .outOfRange

/-- `_value.erase(_value.begin() + index)`: undefined unless there is such an element. -/
def eraseIter (v : Str) (i : Int) : Ix Str :=
  if 0 ≤ i ∧ i < v.length then .ok (v.take i.toNat ++ v.drop (i.toNat + 1)) else .ub

/-- An operator without arguments. -/
def op0 {σ : Type} (f : Ix (σ × Str)) : List Str → Ix (σ × Str)
  | [] => f
  | _ => .throws .wrongNumberOfArguments

/-- An operator with one argument. -/
def op1 {σ : Type} (f : Str → Ix (σ × Str)) : List Str → Ix (σ × Str)
  | [a] => f a
  | _ => .throws .wrongNumberOfArguments

/-- An operator with two arguments. -/
def op2 {σ : Type} (f : Str → Str → Ix (σ × Str)) : List Str → Ix (σ × Str)
  | [a, b] => f a b
  | _ => .throws .wrongNumberOfArguments

/-- An operator with three arguments. -/
def op3 {σ : Type} (f : Str → Str → Str → Ix (σ × Str)) : List Str → Ix (σ × Str)
  | [a, b, c] => f a b c
  | _ => .throws .wrongNumberOfArguments

/-- The comparison operators, `src/instance.cpp:847-891`. -/
def strCmp (cmp : Obj → Obj → Res Bool) (v : Str) : List Str → Ix (Str × Str) := op1 fun a => do
  let w ← stringLit a
  let b ← lift (cmp (.string v) (.string w))
  .ok (v, boolStr b)

/-- `StringInstance::op_atIndex`, `src/instance.cpp:899-906`. -/
def strAtIndex (v : Str) : List Str → Ix (Str × Str) := op1 fun a => do
  let i ← integerLit a
  if i < 0 || i ≥ size v then .throws .invalidArgument
  else
    let c ← «at» v i
    .ok (v, charStr c)

/-- `StringInstance::op_first`, `src/instance.cpp:908-916`. -/
def strFirst (v : Str) : List Str → Ix (Str × Str) := op1 fun a => do
  let n ← integerLit a
  if n < 0 then .throws .invalidArgument
  else
    let t ← substr2 v 0 (min n (size v))
    let r ← quoted t
    .ok (v, r)

/-- `StringInstance::op_last`, `src/instance.cpp:918-926`. -/
def strLast (v : Str) : List Str → Ix (Str × Str) := op1 fun a => do
  let n ← integerLit a
  if n < 0 then .throws .invalidArgument
  else
    let k ← int (size v - min n (size v))
    let t ← substr1 v k
    let r ← quoted t
    .ok (v, r)

/-- `StringInstance::op_substringFromIndex`, `src/instance.cpp:928-935`. -/
def strSubstringFrom (v : Str) : List Str → Ix (Str × Str) := op1 fun a => do
  let i ← integerLit a
  if i < 0 || i > size v then .throws .invalidArgument
  else
    let t ← substr1 v i
    let r ← quoted t
    .ok (v, r)

/-- The range checks of the operators with two indices, e.g. `src/instance.cpp:942-947`, and `to_index - from_index`. -/
def checkRange (v : Str) (i j : Int) : Ix Int := do
  if i < 0 || i > size v then .throws .invalidArgument
  else if j < 0 || j > size v then .throws .invalidArgument
  else
    let d ← int (j - i)
    if d < 0 then .throws .invalidArgument else .ok d

/-- `StringInstance::op_substringFromIndex_toIndex`, `src/instance.cpp:937-949`. -/
def strSubstringFromTo (v : Str) : List Str → Ix (Str × Str) := op2 fun a b => do
  let i ← integerLit a
  let j ← integerLit b
  let d ← checkRange v i j
  let t ← substr2 v i d
  let r ← quoted t
  .ok (v, r)

/-- `StringInstance::op_popBack`, `src/instance.cpp:969-977`. -/
def strPopBack (v : Str) : List Str → Ix (Str × Str) := op0 <|
  if v.length == 0 then .ok (v, b!"null")
  else do
    let c ← last v
    let w ← init v
    .ok (w, charStr c)

/-- `StringInstance::op_popFront`, `src/instance.cpp:979-987`. -/
def strPopFront (v : Str) : List Str → Ix (Str × Str) := op0 <|
  if v.length == 0 then .ok (v, b!"null")
  else do
    let c ← «at» v 0
    let n ← int (size v - 1)
    let w ← substr2 v 1 n
    .ok (w, charStr c)

/-- `StringInstance::op_popAtIndex`, `src/instance.cpp:989-998`. -/
def strPopAtIndex (v : Str) : List Str → Ix (Str × Str) := op1 fun a => do
  let i ← integerLit a
  if i < 0 || i ≥ size v then .throws .invalidArgument
  else
    let c ← «at» v i
    let w ← eraseIter v i
    .ok (w, charStr c)

/-- `StringInstance::op_insert_beforeIndex`, `src/instance.cpp:1009-1019`. -/
def strInsert (v : Str) : List Str → Ix (Str × Str) := op2 fun a b => do
  if ← Ix.not (isStringValue a) then .throws .invalidArgument
  else
    let i ← integerLit b
    if i < 0 || i > size v then .throws .invalidArgument
    else
      let w ← stringLit a
      let u ← insertAt v i w
      .ok (u, b!"null")

/-- `StringInstance::op_eraseFromIndex`, `src/instance.cpp:1021-1029`. -/
def strErase (v : Str) : List Str → Ix (Str × Str) := op1 fun a => do
  let i ← integerLit a
  if i < 0 || i > size v then .throws .invalidArgument
  else
    let w ← erase1 v i
    .ok (w, b!"null")

/-- `StringInstance::op_eraseFromIndex_toIndex`, `src/instance.cpp:1031-1044`. -/
def strEraseTo (v : Str) : List Str → Ix (Str × Str) := op2 fun a b => do
  let i ← integerLit a
  let j ← integerLit b
  let d ← checkRange v i j
  let w ← erase2 v i d
  .ok (w, b!"null")

/-- `StringInstance::receive` and its operators, `src/instance.cpp:754-1051`. -/
def stringTable (eps : Fl) (v : Str) : List (Str × (List Str → Ix (Str × Str))) := [
  (b!"get", op0 (do let r ← quoted v; .ok (v, r))),
  (b!"set:", op1 fun a => do let w ← stringLit a; .ok (w, b!"null")),
  (b!"isEmpty?", op0 (.ok (v, boolStr (v.length == 0)))),
  (b!"startsWith?", op1 fun a => do let w ← stringLit a; let b ← startsWith v w; .ok (v, boolStr b)),
  (b!"endsWith?", op1 fun a => do let w ← stringLit a; let b ← endsWith v w; .ok (v, boolStr b)),
  (b!"isLexicographicallyEqualTo?", strCmp (equalTo eps) v),
  (b!"isLexicographicallyLessThan?", strCmp (lessThan eps) v),
  (b!"isLexicographicallyLessThanOrEqualTo?", strCmp (lessThanOrEqualTo eps) v),
  (b!"isLexicographicallyGreaterThan?", strCmp (greaterThan eps) v),
  (b!"isLexicographicallyGreaterThanOrEqualTo?", strCmp (greaterThanOrEqualTo eps) v),
  (b!"length", op0 (.ok (v, intStr (size v)))),
  (b!"atIndex:", strAtIndex v),
  (b!"first:", strFirst v),
  (b!"last:", strLast v),
  (b!"substringFromIndex:", strSubstringFrom v),
  (b!"substringFromIndex:toIndex:", strSubstringFromTo v),
  (b!"pushBack:", op1 fun a => do let c ← characterLit a; .ok (v ++ [c], b!"null")),
  (b!"pushFront:", op1 fun a => do let c ← characterLit a; .ok ([c] ++ v, b!"null")),
  (b!"popBack", strPopBack v),
  (b!"popFront", strPopFront v),
  (b!"popAtIndex:", strPopAtIndex v),
  (b!"concatenate:", op1 fun a => do let w ← stringLit a; .ok (v ++ w, b!"null")),
  (b!"insert:beforeIndex:", strInsert v),
  (b!"eraseFromIndex:", strErase v),
  (b!"eraseFromIndex:toIndex:", strEraseTo v),
  (b!"clear", op0 (.ok ([], b!"null")))]

/-- The chain of `if (message_name == …)`, as a table. -/
def find {σ : Type} : List (Str × (List Str → Ix (σ × Str))) → Str → List Str → Ix (σ × Str)
  | [], _, _ => .throws .invalidMessage
  | (n, op) :: t, name, args => if name == n then op args else find t name args

/-- `StringInstance::receive`, `src/instance.cpp:754-813`: the new value and the reply. -/
def receive (eps : Fl) (v : Str) (name : Str) (args : List Str) : Ix (Str × Str) := find (stringTable eps v) name args

end Knuckle.Idx
