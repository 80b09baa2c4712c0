/-
`VectorInstance` (`src/instance.cpp:1055-1465`) once more, with the `int` indices of the C++ as in `Verif.Model.Indexed`: `int(_value.size())`
wraps around, `_value[i]` is undefined without such an element, `_value.begin() + i` and `_value.end() - n` are undefined outside of the vector.

Simplification: an operator returns the new value and the reply; if it throws, the value is not mentioned (see `Verif.Model.Instance` for that).
Loops over iterators have no indices, they are those of `Verif.Model.Instance`.
-/
import Verif.Model.IndexedString

namespace Knuckle.Idx

/-- `FloatInstance(value).value()`, `src/instance.cpp:558-562`. -/
def floatLit (s : Str) : Ix Fl := do
  if ← Ix.not (isFloatValue s) then .throws .invalidArgument else .ok (atof s).toF32

/-- `get_shared_instance`, `src/instance.cpp:42-55`. -/
def getSharedInstance (type value : Str) : Ix Obj :=
  if type == b!"Boolean" then do
    let b ← lift (booleanLit value)
    .ok (.boolean b)
  else if type == b!"Character" then do
    let c ← characterLit value
    .ok (.character c)
  else if type == b!"Integer" then do
    let i ← integerLit value
    .ok (.integer i)
  else if type == b!"Float" then do
    let x ← floatLit value
    .ok (.float x)
  else if type == b!"String" then do
    let v ← stringLit value
    .ok (.string v)
  else .ub

/-- `representation()` of an element, e.g. `src/instance.cpp:750-752`: only strings have indices. -/
def repr (prec : Int) : Obj → Ix Str
  | .string v => quoted v
  | o => .ok (o.repr prec)

/-- The representations of some elements. -/
def reprs (prec : Int) : List Obj → Ix (List Str)
  | [] => .ok []
  | o :: l => do
    let r ← repr prec o
    let rs ← reprs prec l
    .ok (r :: rs)

/-- `vector_representation`, `src/instance.cpp:57-65`. -/
def vectorRepr (prec : Int) (l : List Obj) : Ix Str := do
  let rs ← reprs prec l
  .ok (c!"[" :: (joinComma rs ++ [c!"]"]))

/-- `int(_value.size())`. -/
def count (l : List Obj) : Int := toInt l.length

/-- `_value[i]`. -/
def elem (l : List Obj) (i : Int) : Ix Obj :=
  match l[toSize i]? with
  | some o => .ok o
  | none => .ub

/-- `_value[i] = o`. -/
def assign (l : List Obj) (i : Int) (o : Obj) : Ix (List Obj) := if toSize i < l.length then .ok (l.set (toSize i) o) else .ub

/-- `_value.begin() + i`: the position in the vector. -/
def begin (l : List Obj) (i : Int) : Ix Nat := if 0 ≤ i ∧ i ≤ l.length then .ok i.toNat else .ub

/-- `_value.end() - n`. -/
def endMinus (l : List Obj) (n : Int) : Ix Nat := if 0 ≤ n ∧ n ≤ l.length then .ok (l.length - n.toNat) else .ub

/-- The elements between two iterators: undefined if the second is not reachable from the first. -/
def between (l : List Obj) (p q : Nat) : Ix (List Obj) := if p ≤ q then .ok ((l.take q).drop p) else .ub

/-- `_value.erase(first, last)`. -/
def eraseBetween (l : List Obj) (p q : Nat) : Ix (List Obj) := if p ≤ q then .ok (l.take p ++ l.drop q) else .ub

/-- `_value.erase(it)`: undefined at the end. -/
def eraseOne (l : List Obj) (p : Nat) : Ix (List Obj) := if p < l.length then .ok (l.take p ++ l.drop (p + 1)) else .ub

/-- The check `index < 0 || index > int(_value.size())`. -/
def checkFrom (l : List Obj) (i : Int) : Ix Unit := if i < 0 || i > count l then .throws .invalidArgument else .ok ()

/-- The check `index < 0 || index >= int(_value.size())`. -/
def checkAt (l : List Obj) (i : Int) : Ix Unit := if i < 0 || i ≥ count l then .throws .invalidArgument else .ok ()

/-- The checks of the operators with two indices, e.g. `src/instance.cpp:1274-1279`. -/
def checkBoth (l : List Obj) (i j : Int) : Ix Unit := do
  if i < 0 || i > count l then .throws .invalidArgument
  else if j < 0 || j > count l then .throws .invalidArgument
  else
    let d ← int (j - i)
    if d < 0 then .throws .invalidArgument else .ok ()

/-- `VectorInstance::op_contains`, `src/instance.cpp:1154-1162`. -/
def vecContains (cfg : Cfg) (et : Str) (l : List Obj) : List Str → Ix (List Obj × Str) := op1 fun a => do
  let o ← getSharedInstance et a
  let k ← lift (findFrom cfg.eps o l 0)
  .ok (l, boolStr k.isSome)

/-- `VectorInstance::op_contains_fromIndex`, `src/instance.cpp:1164-1175`. -/
def vecContainsFrom (cfg : Cfg) (et : Str) (l : List Obj) : List Str → Ix (List Obj × Str) := op2 fun a b => do
  let o ← getSharedInstance et a
  let i ← integerLit b
  checkFrom l i
  let p ← begin l i
  let k ← lift (findFrom cfg.eps o (l.drop p) p)
  .ok (l, boolStr k.isSome)

/-- The counting loop, `src/instance.cpp:1181-1184`: `count++` may overflow. -/
def countLoop (eps : Fl) (o : Obj) : List Obj → Int → Ix Int
  | [], n => .ok n
  | x :: xs, n => do
    let b ← lift (equalTo eps x o)
    if b then
      let m ← int (n + 1)
      countLoop eps o xs m
    else countLoop eps o xs n

/-- `VectorInstance::op_count`, `src/instance.cpp:1177-1186`. -/
def vecCount (cfg : Cfg) (et : Str) (l : List Obj) : List Str → Ix (List Obj × Str) := op1 fun a => do
  let o ← getSharedInstance et a
  let n ← countLoop cfg.eps o l 0
  .ok (l, intStr n)

/-- `VectorInstance::op_atIndex`, `src/instance.cpp:1188-1195`. -/
def vecAtIndex (cfg : Cfg) (l : List Obj) : List Str → Ix (List Obj × Str) := op1 fun a => do
  let i ← integerLit a
  checkAt l i
  let o ← elem l i
  let r ← repr cfg.prec o
  .ok (l, r)

/-- `IntegerInstance(it - _value.begin()).representation()`, or -1, `src/instance.cpp:1203-1204`: the distance is converted to an `int`. -/
def indexReply : Option Nat → Str
  | some i => intStr (toInt i)
  | none => b!"-1"

/-- `VectorInstance::op_firstIndexOf`, `src/instance.cpp:1197-1205`. -/
def vecFirstIndexOf (cfg : Cfg) (et : Str) (l : List Obj) : List Str → Ix (List Obj × Str) := op1 fun a => do
  let o ← getSharedInstance et a
  let k ← lift (findFrom cfg.eps o l 0)
  .ok (l, indexReply k)

/-- `VectorInstance::op_firstIndexOf_fromIndex`, `src/instance.cpp:1207-1218`. -/
def vecFirstIndexOfFrom (cfg : Cfg) (et : Str) (l : List Obj) : List Str → Ix (List Obj × Str) := op2 fun a b => do
  let o ← getSharedInstance et a
  let i ← integerLit b
  checkFrom l i
  let p ← begin l i
  let k ← lift (findFrom cfg.eps o (l.drop p) p)
  .ok (l, indexReply k)

/-- `VectorInstance::op_allIndexesOf`, `src/instance.cpp:1220-1232`: `std::to_string` of a 64-bit distance. -/
def vecAllIndexesOf (cfg : Cfg) (et : Str) (l : List Obj) : List Str → Ix (List Obj × Str) := op1 fun a => do
  let o ← getSharedInstance et a
  let t ← lift (indexesLoop cfg.eps o l 0 [])
  .ok (l, c!"[" :: (t ++ [c!"]"]))

/-- `VectorInstance::op_first`, `src/instance.cpp:1240-1248`. -/
def vecFirst (cfg : Cfg) (l : List Obj) : List Str → Ix (List Obj × Str) := op1 fun a => do
  let n ← integerLit a
  if n < 0 then .throws .invalidArgument
  else
    let q ← begin l (min n (count l))
    let t ← between l 0 q
    let r ← vectorRepr cfg.prec t
    .ok (l, r)

/-- `VectorInstance::op_last`, `src/instance.cpp:1250-1258`. -/
def vecLast (cfg : Cfg) (l : List Obj) : List Str → Ix (List Obj × Str) := op1 fun a => do
  let n ← integerLit a
  if n < 0 then .throws .invalidArgument
  else
    let p ← endMinus l (min n (count l))
    let t ← between l p l.length
    let r ← vectorRepr cfg.prec t
    .ok (l, r)

/-- `VectorInstance::op_sliceFromIndex`, `src/instance.cpp:1260-1267`. -/
def vecSlice (cfg : Cfg) (l : List Obj) : List Str → Ix (List Obj × Str) := op1 fun a => do
  let i ← integerLit a
  checkFrom l i
  let p ← begin l i
  let t ← between l p l.length
  let r ← vectorRepr cfg.prec t
  .ok (l, r)

/-- `VectorInstance::op_sliceFromIndex_toIndex`, `src/instance.cpp:1269-1282`. -/
def vecSliceTo (cfg : Cfg) (l : List Obj) : List Str → Ix (List Obj × Str) := op2 fun a b => do
  let i ← integerLit a
  let j ← integerLit b
  checkBoth l i j
  let p ← begin l i
  let q ← begin l j
  let t ← between l p q
  let r ← vectorRepr cfg.prec t
  .ok (l, r)

/-- `VectorInstance::op_pushBack`, `src/instance.cpp:1284-1290`. -/
def vecPushBack (et : Str) (l : List Obj) : List Str → Ix (List Obj × Str) := op1 fun a => do
  let o ← getSharedInstance et a
  .ok (l ++ [o], b!"null")

/-- `VectorInstance::op_pushFront`, `src/instance.cpp:1292-1298`. -/
def vecPushFront (et : Str) (l : List Obj) : List Str → Ix (List Obj × Str) := op1 fun a => do
  let o ← getSharedInstance et a
  .ok (o :: l, b!"null")

/-- `VectorInstance::op_popBack`, `src/instance.cpp:1300-1308`. -/
def vecPopBack (cfg : Cfg) (l : List Obj) : List Str → Ix (List Obj × Str) := op0 <|
  if l.length == 0 then .ok (l, b!"null")
  else do
    let i ← int (count l - 1)
    let o ← elem l i
    let r ← repr cfg.prec o
    .ok (l.take (l.length - 1), r)

/-- `VectorInstance::op_popFront`, `src/instance.cpp:1310-1318`. -/
def vecPopFront (cfg : Cfg) (l : List Obj) : List Str → Ix (List Obj × Str) := op0 <|
  if l.length == 0 then .ok (l, b!"null")
  else do
    let o ← elem l 0
    let p ← begin l 0
    let t ← eraseOne l p
    let r ← repr cfg.prec o
    .ok (t, r)

/-- `VectorInstance::op_popAtIndex`, `src/instance.cpp:1320-1329`. -/
def vecPopAtIndex (cfg : Cfg) (l : List Obj) : List Str → Ix (List Obj × Str) := op1 fun a => do
  let i ← integerLit a
  checkAt l i
  let o ← elem l i
  let p ← begin l i
  let t ← eraseOne l p
  let r ← repr cfg.prec o
  .ok (t, r)

/-- `VectorInstance::op_insert_beforeIndex`, `src/instance.cpp:1331-1340`. -/
def vecInsert (et : Str) (l : List Obj) : List Str → Ix (List Obj × Str) := op2 fun a b => do
  let o ← getSharedInstance et a
  let i ← integerLit b
  checkFrom l i
  let p ← begin l i
  .ok (l.take p ++ o :: l.drop p, b!"null")

/-- `VectorInstance::op_eraseFromIndex`, `src/instance.cpp:1342-1350`. -/
def vecErase (l : List Obj) : List Str → Ix (List Obj × Str) := op1 fun a => do
  let i ← integerLit a
  checkFrom l i
  let p ← begin l i
  let t ← eraseBetween l p l.length
  .ok (t, b!"null")

/-- `VectorInstance::op_eraseFromIndex_toIndex`, `src/instance.cpp:1352-1365`. -/
def vecEraseTo (l : List Obj) : List Str → Ix (List Obj × Str) := op2 fun a b => do
  let i ← integerLit a
  let j ← integerLit b
  checkBoth l i j
  let p ← begin l i
  let q ← begin l j
  let t ← eraseBetween l p q
  .ok (t, b!"null")

/-- `VectorInstance::op_removeFirst`, `src/instance.cpp:1367-1377`. -/
def vecRemoveFirst (cfg : Cfg) (et : Str) (l : List Obj) : List Str → Ix (List Obj × Str) := op1 fun a => do
  let o ← getSharedInstance et a
  let t ← lift (removeFirstLoop cfg.eps o [] l)
  .ok (t, b!"null")

/-- `VectorInstance::op_removeFirst_fromIndex`, `src/instance.cpp:1379-1392`. -/
def vecRemoveFirstFrom (cfg : Cfg) (et : Str) (l : List Obj) : List Str → Ix (List Obj × Str) := op2 fun a b => do
  let o ← getSharedInstance et a
  let i ← integerLit b
  checkFrom l i
  let p ← begin l i
  let t ← lift (removeFirstLoop cfg.eps o (l.take p) (l.drop p))
  .ok (t, b!"null")

/-- The condition and the body of the loop `src/instance.cpp:1398-1402`, with its `i--` and `i++`: the next `i` and the vector, or the end. -/
def removeBody (eps : Fl) (o : Obj) (i : Int) (l : List Obj) : Ix (Option (Int × List Obj)) :=
  if i < count l then do
    let x ← elem l i
    let b ← lift (equalTo eps x o)
    if b then
      let p ← begin l i
      let t ← eraseOne l p
      let j ← int (i - 1)
      let j ← int (j + 1)
      .ok (some (j, t))
    else
      let j ← int (i + 1)
      .ok (some (j, l))
  else .ok none

/-- The loop `src/instance.cpp:1398-1402`.  (If an iteration did not come closer to the end, the loop would not end: `stuck`.) -/
def removeLoop (eps : Fl) (o : Obj) (i : Int) (l : List Obj) : Ix (List Obj) :=
  match removeBody eps o i l with
  | .ok none => .ok l
  | .ok (some (j, t)) => if ((t.length : Int) - j).toNat < ((l.length : Int) - i).toNat then removeLoop eps o j t else .stuck
  | .throws e => .throws e
  | .outOfRange => .outOfRange
  | .ub => .ub
  | .stack => .stack
  | .stuck => .stuck
termination_by ((l.length : Int) - i).toNat

/-- `VectorInstance::op_removeAll`, `src/instance.cpp:1394-1404`. -/
def vecRemoveAll (cfg : Cfg) (et : Str) (l : List Obj) : List Str → Ix (List Obj × Str) := op1 fun a => do
  let o ← getSharedInstance et a
  let t ← removeLoop cfg.eps o 0 l
  .ok (t, b!"null")

/-- The loop `src/instance.cpp:1411-1415` and `1427-1431`. -/
def replaceLoop (eps : Fl) (et b : Str) (o : Obj) (i : Int) (l : List Obj) : Ix (List Obj) :=
  up (fun i l => do
    if i < count l then
      let x ← elem l i
      let e ← lift (equalTo eps x o)
      if e then
        let n ← getSharedInstance et b
        let t ← assign l i n
        .ok (.stop t)
      else .ok (.next l)
    else .ok (.stop l)) i l

/-- The condition and the body of the loop `src/instance.cpp:1440-1442`. -/
def replaceBody (eps : Fl) (et b : Str) (o : Obj) (i : Int) (l : List Obj) : Ix (Flow (List Obj) (List Obj)) := do
  if i < count l then
    let x ← elem l i
    let e ← lift (equalTo eps x o)
    if e then
      let n ← getSharedInstance et b
      let t ← assign l i n
      .ok (.next t)
    else .ok (.next l)
  else .ok (.stop l)

/-- The loop `src/instance.cpp:1440-1442`. -/
def replaceEach (eps : Fl) (et b : Str) (o : Obj) (l : List Obj) : Ix (List Obj) := up (replaceBody eps et b o) 0 l

/-- `VectorInstance::op_replaceFirst_with`, `src/instance.cpp:1406-1417`. -/
def vecReplaceFirst (cfg : Cfg) (et : Str) (l : List Obj) : List Str → Ix (List Obj × Str) := op2 fun a b => do
  let o ← getSharedInstance et a
  let _ ← getSharedInstance et b
  let t ← replaceLoop cfg.eps et b o 0 l
  .ok (t, b!"null")

/-- `VectorInstance::op_replaceFirst_fromIndex_with`, `src/instance.cpp:1419-1433`. -/
def vecReplaceFirstFrom (cfg : Cfg) (et : Str) (l : List Obj) : List Str → Ix (List Obj × Str) := op3 fun a b c => do
  let o ← getSharedInstance et a
  let _ ← getSharedInstance et c
  let i ← integerLit b
  checkFrom l i
  let t ← replaceLoop cfg.eps et c o i l
  .ok (t, b!"null")

/-- `VectorInstance::op_replaceAll_with`, `src/instance.cpp:1435-1444`. -/
def vecReplaceAll (cfg : Cfg) (et : Str) (l : List Obj) : List Str → Ix (List Obj × Str) := op2 fun a b => do
  let o ← getSharedInstance et a
  let _ ← getSharedInstance et b
  let t ← replaceEach cfg.eps et b o l
  .ok (t, b!"null")

/-- `VectorInstance::op_sort`, `src/instance.cpp:1446-1451`: no indices, as in `Verif.Model.Instance`. -/
def vecSort [StdSort] (cfg : Cfg) (l : List Obj) : List Str → Ix (List Obj × Str) := op0 <|
  if !comparable cfg.eps l then .ub
  else if swoOn (ltB cfg.eps) l then .ok (StdSort.sort (ltB cfg.eps) l, b!"null")
  else .ub

/-- `VectorInstance::receive` and its operators, `src/instance.cpp:1076-1465`. -/
def vectorTable [StdSort] (cfg : Cfg) (et : Str) (l : List Obj) : List (Str × (List Str → Ix (List Obj × Str))) := [
  (b!"get", op0 (do let r ← vectorRepr cfg.prec l; .ok (l, r))),
  (b!"isEmpty?", op0 (.ok (l, boolStr (l.length == 0)))),
  (b!"contains?", vecContains cfg et l),
  (b!"contains?fromIndex:", vecContainsFrom cfg et l),
  (b!"count:", vecCount cfg et l),
  (b!"atIndex:", vecAtIndex cfg l),
  (b!"firstIndexOf:", vecFirstIndexOf cfg et l),
  (b!"firstIndexOf:fromIndex:", vecFirstIndexOfFrom cfg et l),
  (b!"allIndexesOf:", vecAllIndexesOf cfg et l),
  (b!"size", op0 (.ok (l, intStr (count l)))),
  (b!"first:", vecFirst cfg l),
  (b!"last:", vecLast cfg l),
  (b!"sliceFromIndex:", vecSlice cfg l),
  (b!"sliceFromIndex:toIndex:", vecSliceTo cfg l),
  (b!"pushBack:", vecPushBack et l),
  (b!"pushFront:", vecPushFront et l),
  (b!"popBack", vecPopBack cfg l),
  (b!"popFront", vecPopFront cfg l),
  (b!"popAtIndex:", vecPopAtIndex cfg l),
  (b!"insert:beforeIndex:", vecInsert et l),
  (b!"eraseFromIndex:", vecErase l),
  (b!"eraseFromIndex:toIndex:", vecEraseTo l),
  (b!"removeFirst:", vecRemoveFirst cfg et l),
  (b!"removeFirst:fromIndex:", vecRemoveFirstFrom cfg et l),
  (b!"removeAll:", vecRemoveAll cfg et l),
  (b!"replaceFirst:with:", vecReplaceFirst cfg et l),
  (b!"replaceFirst:fromIndex:with:", vecReplaceFirstFrom cfg et l),
  (b!"replaceAll:with:", vecReplaceAll cfg et l),
  (b!"sort", vecSort cfg l),
  (b!"reverse", op0 (.ok (l.reverse, b!"null"))),
  (b!"clear", op0 (.ok ([], b!"null")))]

/-- `VectorInstance::receive`, `src/instance.cpp:1076-1140`. -/
def vecReceive [StdSort] (cfg : Cfg) (et : Str) (l : List Obj) (name : Str) (args : List Str) : Ix (List Obj × Str) :=
  find (vectorTable cfg et l) name args

end Knuckle.Idx
