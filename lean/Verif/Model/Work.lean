/-
The execution of requests once more, counting steps: the containers of `Verif.Model.Instance` and the context of
`Verif.Model.Context`, with the same control flow, paired with the number of steps.

What counts: one step per object that is visited, copied or destroyed, per pointer that a vector moves when an element is inserted or
erased, and per byte that is read, copied, compared or printed.  In particular:

* reading a literal takes as many steps as it has bytes, and one (the recognizers and `unescape` are a fixed number of loops);
* a comparison of two objects takes as many steps as both have bytes, as `StringInstance::value` (`src/instance.cpp:746-748`) copies the
  text; `InstanceIsEqualToComparator` makes at most two of them, counted as one;
* the messages to booleans, characters, numbers and strings are a fixed number of loops over the value, the arguments and the reply;
* a reply takes as many steps as it has bytes, and one.

What the standard library does inside `std::map`, `std::set` and `std::sort` is a parameter (`Library`).
-/
import Verif.Model.Context
import Verif.Model.Cost
import Verif.Model.Server

namespace Knuckle.Work

/-- Which comparisons the ordered containers and `std::sort` make: at which positions a key is compared with the elements of a container,
and which pairs of positions of a vector are compared.  The C++ standard only says how many: at most logarithmically many for a search, and
of the order of n log n to sort n elements ([associative.reqmts], [sort]); a search goes down a path of the tree, at most a fixed number of
times.  (The shape of a tree depends on its history.  What is proved holds for every `Library`, so for the one whose paths are those of the
trees at the time of the request.) -/
class Library where
  factor : Nat
  names : List Str → Str → List Nat
  objects : List Obj → Obj → List Nat
  sorting : List Obj → List (Nat × Nat)
  names_few : ∀ l k, (names l k).length ≤ factor * (Nat.log2 l.length + 1)
  objects_few : ∀ l k, (objects l k).length ≤ factor * (Nat.log2 l.length + 1)
  objects_path : ∀ l k p, (objects l k).count p ≤ factor
  sorting_few : ∀ l, (sorting l).length ≤ factor * (l.length * (Nat.log2 l.length + 1))

/-- A result with the number of steps it took. -/
structure Work (α : Type) where
  res : Res α
  steps : Nat

/-- Sequencing adds the steps; an exception or undefined behaviour ends the computation. -/
def Work.bind {α β : Type} (x : Work α) (f : α → Work β) : Work β :=
  match x.res with
  | .ok a => ⟨(f a).res, x.steps + (f a).steps⟩
  | .err e => ⟨.err e, x.steps⟩
  | .ub => ⟨.ub, x.steps⟩

instance : Monad Work where
  pure a := ⟨.ok a, 0⟩
  bind := Work.bind

/-- Nothing that takes time. -/
def free {α : Type} (x : Res α) : Work α := ⟨x, 0⟩

/-- This many steps. -/
def spend (n : Nat) : Work Unit := ⟨.ok (), n⟩

/-! ### Objects -/

/-- The steps to copy or destroy an object: one, and one for each byte of a string. -/
def size : Obj → Nat
  | .string v => v.length + 1
  | _ => 1

/-- The steps of a comparison, `src/instance.cpp:85-149`. -/
def compare (a b : Obj) : Nat := size a + size b

/-- `get_shared_instance`, `src/instance.cpp:42-55`. -/
def literal (type a : Str) : Work Obj := ⟨getSharedInstance type a, a.length + 1⟩

/-- `IntegerInstance(value).value()`, `src/instance.cpp:381-385`. -/
def index (a : Str) : Work Int := ⟨integerLit a, a.length + 1⟩

/-- The reply of an operator. -/
def answer {σ : Type} (s : σ) (r : Str) : Work (σ × Str) := ⟨.ok (s, r), r.length + 1⟩

/-- The steps of a search in an ordered container, `find`, `insert`, `erase`, `operator[]`. -/
def searching [Library] (l : List Obj) (k : Obj) : Nat :=
  ((Library.objects l k).map fun p => (l[p]?.map fun x => compare x k).getD 0).sum

/-! ### Dispatch -/

/-- As `Table`. -/
abbrev Table (σ : Type) := List (Str × (List Str → Counted (Run σ)))

/-- As `dispatch`: the name is compared with one name after the other. -/
def dispatch {σ : Type} (old : σ) : Table σ → Str → List Str → Counted (Run σ)
  | [], _, _ => (.thr old .invalidMessage, 1)
  | (n, op) :: t, name, args =>
    if name == n then ((op args).1, name.length + 1 + (op args).2)
    else ((dispatch old t name args).1, name.length + 1 + (dispatch old t name args).2)

/-- As `op0`. -/
def op0 {σ : Type} (old : σ) (f : Work (σ × Str)) : List Str → Counted (Run σ)
  | [] => (f.res.run old, f.steps)
  | _ => (.thr old .wrongNumberOfArguments, 1)

/-- As `op1`. -/
def op1 {σ : Type} (old : σ) (f : Str → Work (σ × Str)) : List Str → Counted (Run σ)
  | [a] => ((f a).res.run old, (f a).steps)
  | _ => (.thr old .wrongNumberOfArguments, 1)

/-- As `op2`. -/
def op2 {σ : Type} (old : σ) (f : Str → Str → Work (σ × Str)) : List Str → Counted (Run σ)
  | [a, b] => ((f a b).res.run old, (f a b).steps)
  | _ => (.thr old .wrongNumberOfArguments, 1)

/-- As `op3`. -/
def op3 {σ : Type} (old : σ) (f : Str → Str → Str → Work (σ × Str)) : List Str → Counted (Run σ)
  | [a, b, c] => ((f a b c).res.run old, (f a b c).steps)
  | _ => (.thr old .wrongNumberOfArguments, 1)

/-! ### VectorInstance -/

/-- The loops of `src/instance.cpp:1158-1160,1171-1173,1201-1203,1214-1216`. -/
def findFrom (eps : Fl) (o : Obj) : List Obj → Nat → Work (Option Nat)
  | [], _ => pure none
  | x :: xs, i => do
    spend (compare x o)
    if ← free (equalTo eps x o) then pure (some i) else findFrom eps o xs (i + 1)

/-- The counting loop, `src/instance.cpp:1181-1184`. -/
def countLoop (eps : Fl) (o : Obj) : List Obj → Nat → Work Nat
  | [], n => pure n
  | x :: xs, n => do
    spend (compare x o)
    if ← free (equalTo eps x o) then countLoop eps o xs (n + 1) else countLoop eps o xs n

/-- The loop of `op_allIndexesOf`, `src/instance.cpp:1224-1230`; the digits and commas are counted with the reply. -/
def indexesLoop (eps : Fl) (o : Obj) : List Obj → Nat → Str → Work Str
  | [], _, acc => pure acc
  | x :: xs, i, acc => do
    spend (compare x o)
    if ← free (equalTo eps x o) then
      indexesLoop eps o xs (i + 1) ((if acc.length > 0 then acc ++ [c!","] else acc) ++ natStr i)
    else indexesLoop eps o xs (i + 1) acc

/-- Erase the first element equal to `o`, `src/instance.cpp:1371-1375,1386-1390`: the elements behind it are moved. -/
def removeFirstLoop (eps : Fl) (o : Obj) (pre : List Obj) : List Obj → Work (List Obj)
  | [] => pure pre
  | x :: xs => do
    spend (compare x o)
    if ← free (equalTo eps x o) then
      spend (size x + xs.length)
      pure (pre ++ xs)
    else removeFirstLoop eps o (pre ++ [x]) xs

/-- `src/instance.cpp:1398-1402`: for each match the elements behind it are moved. -/
def removeAllLoop (eps : Fl) (o : Obj) (pre : List Obj) : List Obj → Counted (Run (List Obj))
  | [] => (.ret pre b!"null", 5)
  | x :: xs => match equalTo eps x o with
    | .ok true => ((removeAllLoop eps o pre xs).1, compare x o + size x + xs.length + (removeAllLoop eps o pre xs).2)
    | .ok false => ((removeAllLoop eps o (pre ++ [x]) xs).1, compare x o + (removeAllLoop eps o (pre ++ [x]) xs).2)
    | .err e => (.thr (pre ++ x :: xs) e, compare x o)
    | .ub => (.ub, compare x o)

/-- `src/instance.cpp:1411-1415,1427-1431`. -/
def replaceFirstLoop (eps : Fl) (et b : Str) (o : Obj) (pre : List Obj) : List Obj → Work (List Obj)
  | [] => pure pre
  | x :: xs => do
    spend (compare x o)
    if ← free (equalTo eps x o) then
      let n ← literal et b
      spend (size x)
      pure (pre ++ n :: xs)
    else replaceFirstLoop eps et b o (pre ++ [x]) xs

/-- `src/instance.cpp:1440-1442`: the replacement is read again for each match. -/
def replaceAllLoop (eps : Fl) (et b : Str) (o : Obj) (pre : List Obj) : List Obj → Counted (Run (List Obj))
  | [] => (.ret pre b!"null", 5)
  | x :: xs => match equalTo eps x o with
    | .ok true => match getSharedInstance et b with
      | .ok n => ((replaceAllLoop eps et b o (pre ++ [n]) xs).1,
          compare x o + size x + (b.length + 1) + (replaceAllLoop eps et b o (pre ++ [n]) xs).2)
      | .err e => (.thr (pre ++ x :: xs) e, compare x o + (b.length + 1))
      | .ub => (.ub, compare x o + (b.length + 1))
    | .ok false => ((replaceAllLoop eps et b o (pre ++ [x]) xs).1, compare x o + (replaceAllLoop eps et b o (pre ++ [x]) xs).2)
    | .err e => (.thr (pre ++ x :: xs) e, compare x o)
    | .ub => (.ub, compare x o)

/-- `VectorInstance::op_contains`, `src/instance.cpp:1154-1162`. -/
def vecContains (cfg : Cfg) (et : Str) (l : List Obj) : List Str → Counted (Run (List Obj)) := op1 l fun a => do
  let o ← literal et a
  let r ← findFrom cfg.eps o l 0
  answer l (boolStr r.isSome)

/-- `VectorInstance::op_contains_fromIndex`, `src/instance.cpp:1164-1175`. -/
def vecContainsFrom (cfg : Cfg) (et : Str) (l : List Obj) : List Str → Counted (Run (List Obj)) := op2 l fun a b => do
  let o ← literal et a
  let i ← index b
  free (checkFrom l.length i)
  let r ← findFrom cfg.eps o (l.drop i.toNat) i.toNat
  answer l (boolStr r.isSome)

/-- `VectorInstance::op_count`, `src/instance.cpp:1177-1186`. -/
def vecCount (cfg : Cfg) (et : Str) (l : List Obj) : List Str → Counted (Run (List Obj)) := op1 l fun a => do
  let o ← literal et a
  let n ← countLoop cfg.eps o l 0
  answer l (intStr n)

/-- `VectorInstance::op_atIndex`, `src/instance.cpp:1188-1195`. -/
def vecAtIndex (cfg : Cfg) (l : List Obj) : List Str → Counted (Run (List Obj)) := op1 l fun a => do
  let i ← index a
  free (checkAt l.length i)
  match l[i.toNat]? with
  | some o => answer l (o.repr cfg.prec)
  | none => free .ub

/-- `VectorInstance::op_firstIndexOf`, `src/instance.cpp:1197-1205`. -/
def vecFirstIndexOf (cfg : Cfg) (et : Str) (l : List Obj) : List Str → Counted (Run (List Obj)) := op1 l fun a => do
  let o ← literal et a
  let r ← findFrom cfg.eps o l 0
  answer l (indexReply r)

/-- `VectorInstance::op_firstIndexOf_fromIndex`, `src/instance.cpp:1207-1218`. -/
def vecFirstIndexOfFrom (cfg : Cfg) (et : Str) (l : List Obj) : List Str → Counted (Run (List Obj)) := op2 l fun a b => do
  let o ← literal et a
  let i ← index b
  free (checkFrom l.length i)
  let r ← findFrom cfg.eps o (l.drop i.toNat) i.toNat
  answer l (indexReply r)

/-- `VectorInstance::op_allIndexesOf`, `src/instance.cpp:1220-1232`. -/
def vecAllIndexesOf (cfg : Cfg) (et : Str) (l : List Obj) : List Str → Counted (Run (List Obj)) := op1 l fun a => do
  let o ← literal et a
  let r ← indexesLoop cfg.eps o l 0 []
  answer l (c!"[" :: (r ++ [c!"]"]))

/-- `vector_representation`, `src/instance.cpp:57-65`, of a new vector with copies of these pointers. -/
def answerVector {σ : Type} (cfg : Cfg) (s : σ) (l : List Obj) : Work (σ × Str) := do
  spend (2 * l.length)
  answer s (vectorRepr cfg.prec l)

/-- `VectorInstance::op_first`, `src/instance.cpp:1240-1248`. -/
def vecFirst (cfg : Cfg) (l : List Obj) : List Str → Counted (Run (List Obj)) := op1 l fun a => do
  let n ← index a
  if n < 0 then free (.err .invalidArgument)
  else answerVector cfg l (l.take (min n (l.length : Int)).toNat)

/-- `VectorInstance::op_last`, `src/instance.cpp:1250-1258`. -/
def vecLast (cfg : Cfg) (l : List Obj) : List Str → Counted (Run (List Obj)) := op1 l fun a => do
  let n ← index a
  if n < 0 then free (.err .invalidArgument)
  else answerVector cfg l (l.drop (l.length - (min n (l.length : Int)).toNat))

/-- `VectorInstance::op_sliceFromIndex`, `src/instance.cpp:1260-1267`. -/
def vecSlice (cfg : Cfg) (l : List Obj) : List Str → Counted (Run (List Obj)) := op1 l fun a => do
  let i ← index a
  free (checkFrom l.length i)
  answerVector cfg l (l.drop i.toNat)

/-- `VectorInstance::op_sliceFromIndex_toIndex`, `src/instance.cpp:1269-1282`. -/
def vecSliceTo (cfg : Cfg) (l : List Obj) : List Str → Counted (Run (List Obj)) := op2 l fun a b => do
  let i ← index a
  let j ← index b
  free (checkRange l.length i j)
  answerVector cfg l ((l.take j.toNat).drop i.toNat)

/-- `VectorInstance::op_pushBack`, `src/instance.cpp:1284-1290`: a full vector is moved to a greater one. -/
def vecPushBack (et : Str) (l : List Obj) : List Str → Counted (Run (List Obj)) := op1 l fun a => do
  let o ← literal et a
  spend (l.length + 1)
  answer (l ++ [o]) b!"null"

/-- `VectorInstance::op_pushFront`, `src/instance.cpp:1292-1298`. -/
def vecPushFront (et : Str) (l : List Obj) : List Str → Counted (Run (List Obj)) := op1 l fun a => do
  let o ← literal et a
  spend (l.length + 1)
  answer (o :: l) b!"null"

/-- `VectorInstance::op_popBack`, `src/instance.cpp:1300-1308`. -/
def vecPopBack (cfg : Cfg) (l : List Obj) : List Str → Counted (Run (List Obj)) := op0 l <|
  if l.length == 0 then answer l b!"null"
  else match l[l.length - 1]? with
    | some o => do
      spend (size o)
      answer (l.take (l.length - 1)) (o.repr cfg.prec)
    | none => free .ub

/-- `VectorInstance::op_popFront`, `src/instance.cpp:1310-1318`. -/
def vecPopFront (cfg : Cfg) (l : List Obj) : List Str → Counted (Run (List Obj)) := op0 l <|
  if l.length == 0 then answer l b!"null"
  else match l[0]? with
    | some o => do
      spend (size o + l.length)
      answer (l.drop 1) (o.repr cfg.prec)
    | none => free .ub

/-- `VectorInstance::op_popAtIndex`, `src/instance.cpp:1320-1329`. -/
def vecPopAtIndex (cfg : Cfg) (l : List Obj) : List Str → Counted (Run (List Obj)) := op1 l fun a => do
  let i ← index a
  free (checkAt l.length i)
  match l[i.toNat]? with
  | some o => do
    spend (size o + (l.length - i.toNat))
    answer (l.take i.toNat ++ l.drop (i.toNat + 1)) (o.repr cfg.prec)
  | none => free .ub

/-- `VectorInstance::op_insert_beforeIndex`, `src/instance.cpp:1331-1340`. -/
def vecInsert (et : Str) (l : List Obj) : List Str → Counted (Run (List Obj)) := op2 l fun a b => do
  let o ← literal et a
  let i ← index b
  free (checkFrom l.length i)
  spend (l.length + 1)
  answer (l.take i.toNat ++ o :: l.drop i.toNat) b!"null"

/-- `VectorInstance::op_eraseFromIndex`, `src/instance.cpp:1342-1350`. -/
def vecErase (l : List Obj) : List Str → Counted (Run (List Obj)) := op1 l fun a => do
  let i ← index a
  free (checkFrom l.length i)
  spend ((l.drop i.toNat).map size).sum
  answer (l.take i.toNat) b!"null"

/-- `VectorInstance::op_eraseFromIndex_toIndex`, `src/instance.cpp:1352-1365`. -/
def vecEraseTo (l : List Obj) : List Str → Counted (Run (List Obj)) := op2 l fun a b => do
  let i ← index a
  let j ← index b
  free (checkRange l.length i j)
  spend (((l.take j.toNat).drop i.toNat).map size).sum
  spend (l.drop j.toNat).length
  answer (l.take i.toNat ++ l.drop j.toNat) b!"null"

/-- `VectorInstance::op_removeFirst`, `src/instance.cpp:1367-1377`. -/
def vecRemoveFirst (cfg : Cfg) (et : Str) (l : List Obj) : List Str → Counted (Run (List Obj)) := op1 l fun a => do
  let o ← literal et a
  let l' ← removeFirstLoop cfg.eps o [] l
  answer l' b!"null"

/-- `VectorInstance::op_removeFirst_fromIndex`, `src/instance.cpp:1379-1392`. -/
def vecRemoveFirstFrom (cfg : Cfg) (et : Str) (l : List Obj) : List Str → Counted (Run (List Obj)) := op2 l fun a b => do
  let o ← literal et a
  let i ← index b
  free (checkFrom l.length i)
  let l' ← removeFirstLoop cfg.eps o (l.take i.toNat) (l.drop i.toNat)
  answer l' b!"null"

/-- `VectorInstance::op_removeAll`, `src/instance.cpp:1394-1404`. -/
def vecRemoveAll (cfg : Cfg) (et : Str) (l : List Obj) : List Str → Counted (Run (List Obj)) := fun
  | [a] => match getSharedInstance et a with
    | .ok o => ((removeAllLoop cfg.eps o [] l).1, a.length + 1 + (removeAllLoop cfg.eps o [] l).2)
    | .err e => (.thr l e, a.length + 1)
    | .ub => (.ub, a.length + 1)
  | _ => (.thr l .wrongNumberOfArguments, 1)

/-- `VectorInstance::op_replaceFirst_with`, `src/instance.cpp:1406-1417`. -/
def vecReplaceFirst (cfg : Cfg) (et : Str) (l : List Obj) : List Str → Counted (Run (List Obj)) := op2 l fun a b => do
  let o ← literal et a
  let _ ← literal et b
  let l' ← replaceFirstLoop cfg.eps et b o [] l
  answer l' b!"null"

/-- `VectorInstance::op_replaceFirst_fromIndex_with`, `src/instance.cpp:1419-1433`. -/
def vecReplaceFirstFrom (cfg : Cfg) (et : Str) (l : List Obj) : List Str → Counted (Run (List Obj)) := op3 l fun a b c => do
  let o ← literal et a
  let _ ← literal et c
  let i ← index b
  free (checkFrom l.length i)
  let l' ← replaceFirstLoop cfg.eps et c o (l.take i.toNat) (l.drop i.toNat)
  answer l' b!"null"

/-- `VectorInstance::op_replaceAll_with`, `src/instance.cpp:1435-1444`. -/
def vecReplaceAll (cfg : Cfg) (et : Str) (l : List Obj) : List Str → Counted (Run (List Obj)) := fun
  | [a, b] => match (do let o ← getSharedInstance et a; let _ ← getSharedInstance et b; .ok o : Res Obj) with
    | .ok o => ((replaceAllLoop cfg.eps et b o [] l).1, a.length + 1 + (b.length + 1) + (replaceAllLoop cfg.eps et b o [] l).2)
    | .err e => (.thr l e, a.length + 1 + (b.length + 1))
    | .ub => (.ub, a.length + 1 + (b.length + 1))
  | _ => (.thr l .wrongNumberOfArguments, 1)

/-- The steps of the comparisons of `std::sort`, and of as many moves. -/
def sortingSteps [Library] (l : List Obj) : Nat :=
  ((Library.sorting l).map fun p => (l[p.1]?.map size).getD 0 + (l[p.2]?.map size).getD 0 + 1).sum

/-- `VectorInstance::op_sort`, `src/instance.cpp:1446-1451`. -/
def vecSort [StdSort] [Library] (cfg : Cfg) (l : List Obj) : List Str → Counted (Run (List Obj)) := op0 l <|
  if !comparable cfg.eps l then free .ub
  else if swoOn (ltB cfg.eps) l then do
    spend (sortingSteps l)
    answer (StdSort.sort (ltB cfg.eps) l) b!"null"
  else free .ub

/-- `VectorInstance::receive` and its operators, `src/instance.cpp:1076-1465`. -/
def vectorTable [StdSort] [Library] (cfg : Cfg) (et : Str) (l : List Obj) : Table (List Obj) := [
  (b!"get", op0 l (answerVector cfg l l)),
  (b!"isEmpty?", op0 l (answer l (boolStr (l.length == 0)))),
  (b!"contains?", vecContains cfg et l),
  (b!"contains?fromIndex:", vecContainsFrom cfg et l),
  (b!"count:", vecCount cfg et l),
  (b!"atIndex:", vecAtIndex cfg l),
  (b!"firstIndexOf:", vecFirstIndexOf cfg et l),
  (b!"firstIndexOf:fromIndex:", vecFirstIndexOfFrom cfg et l),
  (b!"allIndexesOf:", vecAllIndexesOf cfg et l),
  (b!"size", op0 l (answer l (intStr l.length))),
  (b!"first:", vecFirst cfg l),
  (b!"last:", vecLast cfg l),
  (b!"sliceFromIndex:", vecSlice cfg l),
  (b!"sliceFromIndex:toIndex:", vecSliceTo cfg l),
  (b!"pushBack:", vecPushBack et l),
  (b!"pushFront:", vecPushFront et l),
  (b!"popBack", vecPopBack cfg l),
  (b!"popFront", vecPopFront cfg l),
  (b!"popAtIndex:", vecPopAtIndex cfg l),
  (b!"insert:beforeIndex:", vecInsert et l),
  (b!"eraseFromIndex:", vecErase l),
  (b!"eraseFromIndex:toIndex:", vecEraseTo l),
  (b!"removeFirst:", vecRemoveFirst cfg et l),
  (b!"removeFirst:fromIndex:", vecRemoveFirstFrom cfg et l),
  (b!"removeAll:", vecRemoveAll cfg et l),
  (b!"replaceFirst:with:", vecReplaceFirst cfg et l),
  (b!"replaceFirst:fromIndex:with:", vecReplaceFirstFrom cfg et l),
  (b!"replaceAll:with:", vecReplaceAll cfg et l),
  (b!"sort", vecSort cfg l),
  (b!"reverse", op0 l do
    spend l.length
    answer l.reverse b!"null"),
  (b!"clear", op0 l do
    spend (l.map size).sum
    answer [] b!"null")]

/-! ### SetInstance -/

/-- `SetInstance::receive` and its operators, `src/instance.cpp:1486-1560`. -/
def setTable [Library] (cfg : Cfg) (et : Str) (l : List Obj) : Table (List Obj) := [
  (b!"get", op0 l do
    spend l.length
    answer l (setRepr cfg.prec l)),
  (b!"isEmpty?", op0 l (answer l (boolStr l.isEmpty))),
  (b!"contains?", op1 l fun a => do
    let o ← literal et a
    free (orderGuard cfg.eps l o)
    spend (searching l o)
    answer l (boolStr (setFind (ltB cfg.eps) o l))),
  (b!"size", op0 l (answer l (intStr l.length))),
  (b!"add:", op1 l fun a => do
    let o ← literal et a
    free (orderGuard cfg.eps l o)
    spend (searching l o)
    answer (setInsert (ltB cfg.eps) o l) b!"null"),
  (b!"remove:", op1 l fun a => do
    let o ← literal et a
    free (orderGuard cfg.eps l o)
    spend (searching l o)
    spend (size o)
    answer (setErase (ltB cfg.eps) o l) b!"null"),
  (b!"clear", op0 l do
    spend (l.map size).sum
    answer [] b!"null")]

/-! ### DictionaryInstance -/

/-- `DictionaryInstance::op_getValueForKey`, `src/instance.cpp:1660-1668`. -/
def dictGet [Library] (cfg : Cfg) (kt : Str) (l : List (Obj × Obj)) : List Str → Counted (Run (List (Obj × Obj))) := op1 l fun a => do
  let k ← literal kt a
  free (orderGuard cfg.eps (l.map (·.1)) k)
  spend (searching (l.map (·.1)) k)
  match mapFind (ltB cfg.eps) k l with
  | some v => answer l (v.repr cfg.prec)
  | none => answer l b!"null"

/-- `DictionaryInstance::op_associateValue_withKey`, `src/instance.cpp:1670-1677`. -/
def dictAssociate [Library] (cfg : Cfg) (kt vt : Str) (l : List (Obj × Obj)) : List Str → Counted (Run (List (Obj × Obj))) :=
  op2 l fun a b => do
    let v ← literal vt a
    let k ← literal kt b
    free (orderGuard cfg.eps (l.map (·.1)) k)
    spend (searching (l.map (·.1)) k)
    spend ((mapFind (ltB cfg.eps) k l).map size |>.getD 0)
    answer (mapInsert (ltB cfg.eps) k v l) b!"null"

/-- The steps to destroy the pairs of a dictionary. -/
def pairsSize (l : List (Obj × Obj)) : Nat := (l.map fun p => size p.1 + size p.2).sum

/-- `DictionaryInstance::receive` and its operators, `src/instance.cpp:1583-1692`. -/
def dictTable [Library] (cfg : Cfg) (kt vt : Str) (l : List (Obj × Obj)) : Table (List (Obj × Obj)) := [
  (b!"get", op0 l do
    spend l.length
    answer l (dictRepr cfg.prec l)),
  (b!"isEmpty?", op0 l (answer l (boolStr l.isEmpty))),
  (b!"containsKey?", op1 l fun a => do
    let k ← literal kt a
    free (orderGuard cfg.eps (l.map (·.1)) k)
    spend (searching (l.map (·.1)) k)
    answer l (boolStr (mapFind (ltB cfg.eps) k l).isSome)),
  (b!"size", op0 l (answer l (intStr l.length))),
  (b!"keys", op0 l (answerVector cfg l (l.map (·.1)))),
  (b!"values", op0 l (answerVector cfg l (l.map (·.2)))),
  (b!"getValueForKey:", dictGet cfg kt l),
  (b!"associateValue:withKey:", dictAssociate cfg kt vt l),
  (b!"removeKey:", op1 l fun a => do
    let k ← literal kt a
    free (orderGuard cfg.eps (l.map (·.1)) k)
    spend (searching (l.map (·.1)) k)
    spend (size k + (mapFind (ltB cfg.eps) k l |>.map size |>.getD 0))
    answer (mapErase (ltB cfg.eps) k l) b!"null"),
  (b!"clear", op0 l do
    spend (pairsSize l)
    answer [] b!"null")]

/-! ### Instances -/

/-- The steps to destroy an instance. -/
def instSize : Inst → Nat
  | .string v => v.length + 1
  | .vector _ l => (l.map size).sum + 1
  | .set _ l => (l.map size).sum + 1
  | .dictionary _ _ l => pairsSize l + 1
  | _ => 1

/-- The bytes of a reply. -/
def replyLength {σ : Type} : Run σ → Nat
  | .ret _ r => r.length
  | _ => 0

/-- The messages to booleans, characters, numbers and strings, `src/instance.cpp:191-1051`: a fixed number of loops over the value, the
arguments and the reply (simplification: as if all of them were always used). -/
def simple (i : Inst) (name : Str) (args : List Str) (x : Run Inst) : Counted (Run Inst) :=
  (x, 26 * (name.length + 1) + instSize i + (args.map fun a => a.length + 1).sum + replyLength x + 1)

/-- As `wrap`. -/
def wrap {σ : Type} (f : σ → Inst) (x : Counted (Run σ)) : Counted (Run Inst) := (Knuckle.wrap f x.1, x.2)

/-- The virtual method `Instance::receive`, `src/instance.h:53`. -/
def receive [StdSort] [Library] (cfg : Cfg) (i : Inst) (name : Str) (args : List Str) : Counted (Run Inst) :=
  match i with
  | .vector et l => wrap (.vector et) (dispatch l (vectorTable cfg et l) name args)
  | .set et l => wrap (.set et) (dispatch l (setTable cfg et l) name args)
  | .dictionary kt vt l => wrap (.dictionary kt vt) (dispatch l (dictTable cfg kt vt l) name args)
  | i => simple i name args (Knuckle.receive cfg i name args)

/-! ### Context -/

/-- The steps of a comparison of two names. -/
def compareNames (a b : Str) : Nat := min a.length b.length + 1

/-- The steps of a search for a name. -/
def searchingNames [Library] (l : List Str) (k : Str) : Nat :=
  ((Library.names l k).map fun p => (l[p]?.map fun x => compareNames x k).getD 0).sum

/-- `Context::execute_in_type`, `src/context.cpp:78-113`: the actor without spaces, the new instance (from its arguments, twice the bytes at
most), the search for its name, and once more for the insertion. -/
def executeInType [Library] (c : Ctx) (p : Parsed) : Counted (Run Ctx) :=
  let made := p.actor.length + 1 + p.name.length + 1 + (p.args.map fun a => a.length + 1).sum
  match makeInstance p.actor p.name p.args with
  | .ok (some (n, i)) =>
    match mapFind strLt n c.vars with
    | none => (.ret { c with vars := mapInsert strLt n i c.vars } b!"null", made + 2 * searchingNames (c.vars.map (·.1)) n + n.length + 5)
    | some _ =>
      if startsWith p.name b!"createIfNotExists:" then (.ret c b!"null", made + searchingNames (c.vars.map (·.1)) n + 5)
      else (.thr c .nameAlreadyUsed, made + searchingNames (c.vars.map (·.1)) n)
  | .ok none => (.ub, made)
  | .err e => (.thr c e, made)
  | .ub => (.ub, made)

/-- The insertions of `Context::op_listNamespaces` for one variable, `src/context.cpp:180-182`. -/
def insertAll [Library] : List Str → Counted (List Str) → Counted (List Str)
  | [], x => x
  | n :: ns, x => insertAll ns (setInsert strLt n x.1, x.2 + n.length + 1 + searchingNames x.1 n)

/-- The `std::set` built by `Context::op_listNamespaces`, `src/context.cpp:178-182`. -/
def allNamespaces [Library] (vars : List (Str × Inst)) : Counted (List Str) :=
  vars.foldl (fun x v => insertAll (namespacesOf [] v.1) (x.1, x.2 + v.1.length + 1)) ([], 0)

/-- `Context::op_listNamespaces`, `src/context.cpp:175-190`. -/
def opListNamespaces [Library] (c : Ctx) : List Str → Counted (Run Ctx) := op0 c do
  spend (allNamespaces c.vars).2
  spend (allNamespaces c.vars).1.length
  answer c (c!"[" :: (joinComma (allNamespaces c.vars).1 ++ [c!"]"]))

/-- `Context::op_listVariables`, `src/context.cpp:192-202`. -/
def opListVariables (c : Ctx) : List Str → Counted (Run Ctx) := op0 c do
  spend c.vars.length
  answer c (c!"[" :: (joinComma (c.vars.map (·.1)) ++ [c!"]"]))

/-- `Context::op_listVariablesOfNamespace`, `src/context.cpp:204-218`: the prefix is made again for each variable. -/
def opListVariablesOfNamespace (c : Ctx) : List Str → Counted (Run Ctx) := op1 c fun a => do
  spend (a.length + 1)
  if !isNamespace a then free (.err .invalidArgument)
  else do
    spend (c.vars.map fun v => a.length + 3 + compareNames v.1 (a ++ b!"::")).sum
    answer c (c!"[" :: (listOfNamespaceLoop (a ++ b!"::") c.vars [] ++ [c!"]"]))

/-- `Context::op_deleteVariable`, `src/context.cpp:220-231`. -/
def opDeleteVariable (c : Ctx) : List Str → Counted (Run Ctx) := op1 c fun a => do
  spend (a.length + 1)
  if !isVariable a then free (.err .invalidArgument)
  else do
    spend (c.vars.map fun v => compareNames v.1 a).sum
    match eraseName a c.vars with
    | some vs => do
      spend (c.vars.lookup a |>.map instSize |>.getD 0)
      answer { c with vars := vs } b!"null"
    | none => free (.err .unexistentVariable)

/-- `Context::op_deleteVariablesOfNamespace`, `src/context.cpp:233-245`. -/
def opDeleteVariablesOfNamespace (c : Ctx) : List Str → Counted (Run Ctx) := op1 c fun a => do
  spend (a.length + 1)
  if !isNamespace a then free (.err .invalidArgument)
  else do
    spend (c.vars.map fun v => a.length + 3 + compareNames v.1 (a ++ b!"::")).sum
    spend ((c.vars.filter fun v => startsWith v.1 (a ++ b!"::")).map fun v => 2 + v.1.length + instSize v.2).sum
    answer { c with vars := c.vars.filter fun v => !startsWith v.1 (a ++ b!"::") } b!"null"

/-- The operators that read or set one setting, `src/context.cpp:247-273`: loops over the argument and the reply. -/
def setting (args : List Str) (x : Run Ctx) : Counted (Run Ctx) := (x, (args.map fun a => a.length + 1).sum + replyLength x + 1)

/-- `Context::execute_in_context`, `src/context.cpp:115-136`. -/
def contextTable [Library] (c : Ctx) : Table Ctx := [
  (b!"listNamespaces", opListNamespaces c),
  (b!"listVariables", opListVariables c),
  (b!"listVariablesOfNamespace:", opListVariablesOfNamespace c),
  (b!"deleteVariable:", opDeleteVariable c),
  (b!"deleteVariablesOfNamespace:", opDeleteVariablesOfNamespace c),
  (b!"getFloatPrecision", fun args => setting args (.ret c (intStr c.cfg.prec))),
  (b!"setFloatPrecision:", fun args => setting args (opSetFloatPrecision c args)),
  (b!"getFloatComparisonTolerance", fun args => setting args (.ret c (fmtFixed c.cfg.prec c.cfg.eps))),
  (b!"setFloatComparisonTolerance:", fun args => setting args (opSetFloatComparisonTolerance c args))]

/-- `Context::execute_in_variable`, `src/context.cpp:138-143`. -/
def executeInVariable [StdSort] [Library] (c : Ctx) (p : Parsed) : Counted (Run Ctx) :=
  match mapFind strLt p.actor c.vars with
  | none => (.thr c .unexistentVariable, searchingNames (c.vars.map (·.1)) p.actor)
  | some i =>
    (match (receive c.cfg i p.name p.args).1 with
      | .ret i' r => .ret { c with vars := updateVar p.actor i' c.vars } r
      | .thr i' e => .thr { c with vars := updateVar p.actor i' c.vars } e
      | .ub => .ub,
    searchingNames (c.vars.map (·.1)) p.actor + (receive c.cfg i p.name p.args).2)

/-- The `if` chain of `Context::execute`, `src/context.cpp:150-157`; the password is compared with the argument. -/
def executeParsed [StdSort] [Library] (pwd : Str) (c : Ctx) (s : Option Session) (p : Parsed) : Counted (Run (Ctx × Option Session)) :=
  let onCtx : Counted (Run Ctx) → Counted (Run (Ctx × Option Session))
    | (.ret c' r, w) => (.ret (c', s) r, w)
    | (.thr c' e, w) => (.thr (c', s) e, w)
    | (.ub, w) => (.ub, w)
  let x := if isType p.actor then onCtx (executeInType c p)
    else if isContext p.actor then onCtx (dispatch c (contextTable c) p.name p.args)
    else if isVariable p.actor then onCtx (executeInVariable c p)
    else (Knuckle.executeParsed pwd c s p, 2 * (p.name.length + 1) + 3 * (p.args.map fun a => a.length + 1).sum + 5)
  (x.1, 4 * (p.actor.length + 1) + x.2)

/-- `Context::execute`, `src/context.cpp:145-173`: parsing, execution, the log record and the copy of the reply. -/
def execute [StdSort] [Library] (pwd : Str) (c : Ctx) (s : Option Session) (input : Str) : Counted (Outcome (Ctx × Option Session × Str)) :=
  match (parseC input).1 with
  | .ub => (.ub, (parseC input).2)
  | .err e => (.done (c.record input e.text, s, e.text), (parseC input).2 + 2 * (input.length + 1) + 2 * (e.text.length + 1))
  | .ok p => match (executeParsed pwd c s p).1 with
    | .ub => (.ub, (parseC input).2 + (executeParsed pwd c s p).2)
    | .ret (c', s') r => (.done (c'.record input r, s', r),
        (parseC input).2 + (executeParsed pwd c s p).2 + 2 * (input.length + 1) + 2 * (r.length + 1))
    | .thr (c', s') e => (.done (c'.record input e.text, s', e.text),
        (parseC input).2 + (executeParsed pwd c s p).2 + 2 * (input.length + 1) + 2 * (e.text.length + 1))

/-! ### Server -/

/-- The completion handler of the read after a line was taken, `src/server.cpp:114-132`: the handler parses the line itself
(`src/server.cpp:120-125`) and then, if it is allowed, executes it. -/
def handleLine [StdSort] [Library] (s : Server) (i : Nat) (c : Conn) (line rest : Str) : Counted (Outcome Server) :=
  let actor : Res Str := match (parseC line).1 with
    | .ok q => .ok q.actor
    | .err _ => .ok []
    | .ub => .ub
  match actor with
  | .ok actor =>
    if c.sess.authed || isConnection actor then
      (match (execute s.pwd s.ctx (some c.sess) line).1 with
        | .done (ctx', some sess', out) =>
          .done { s with
            ctx := ctx'
            conns := s.conns.set i { c with sess := sess', inbuf := rest, phase := if sess'.connected then .writing out else .dead } }
        | _ => .ub,
      (parseC line).2 + (execute s.pwd s.ctx (some c.sess) line).2)
    else
      (.done { s with conns := s.conns.set i { c with inbuf := rest, phase := .writing Exc.notAuthenticated.text } }, (parseC line).2)
  | _ => (.ub, (parseC line).2)

/-- One event, `src/server.cpp:66-145`: only the handler of a read computes anything (the transfer of bytes from and to the sockets is not
counted). -/
def step [StdSort] [Library] (s : Server) (e : Event) : Option (Counted (Outcome Server)) :=
  match e with
  | .read i => match s.conns[i]? with
    | some c => if c.phase = .reading then
        match splitLine c.inbuf with
        | some (line, rest) => some (handleLine s i c line rest)
        | none => none
      else none
    | none => none
  | e => (Knuckle.step s e).map fun o => (o, 0)

/-- A history of events, as `Knuckle.run`; the steps are added. -/
def run [StdSort] [Library] (s : Server) : List Event → Option (Counted (Outcome Server))
  | [] => some (.done s, 0)
  | e :: es => match step s e with
    | none => none
    | some (.ub, w) => some (.ub, w)
    | some (.done s', w) => (run s' es).map fun x => (x.1, w + x.2)

end Knuckle.Work
