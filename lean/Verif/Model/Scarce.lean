/-
The program with pointers of `Verif.Model.Heap` on a machine whose memory can run out: an allocation may fail, `std::bad_alloc` is
thrown, the locals are destroyed on the way out, and `catch (...)` of `Context::execute` (`src/context.cpp:161-163`) answers with
"RuntimeError: unknown error.".

Where the program allocates.  `alloc` marks an allocation that can fail; several in a row with no effect in between are shown as one.

* `std::make_shared` (an instance), the growth of a vector, a node of a set or map: before anything is changed (the containers give
  the strong guarantee, as copying a `std::shared_ptr` does not throw).
* Strings longer than fifteen characters.  Shorter ones ("null", "true", `'x'`, integers, names of types) need no allocation, as in the
  GNU and LLVM libraries.
* `StringInstance::value()` returns a copy (`src/instance.cpp:746-748`), so comparing two String instances allocates; comparing other
  instances does not.  If the comparator throws in the middle of `std::sort`, the standard leaves the elements of the vector
  unspecified (in the GNU library a pointer can be lost and a null pointer left in its place): the outcome is `unspecified`.
* `std::ostringstream` (`src/instance.cpp:585-589`): its constructor and `str()` throw, but an allocation that fails while a number is
  inserted is caught by the stream, which keeps what it holds so far: the text is cut short, and no exception is thrown.
* An allocation that fails outside the `try` block, for the text of an error or for the log record (`src/context.cpp:158-171`), throws
  out of `Context::execute` and of the completion handler, and ends the process: the outcome is `dies`.

Simplifications, besides those of `Verif.Model.Heap`.  Operators of the object classes allocate only before they change the object
(their replies after a change are short), so one `alloc` stands for all their allocations.  A temporary vector is allocated at once.
An operator may be shown to fail although it would not allocate: the model has more failures than the program, not fewer.
-/
import Verif.Model.Heap

namespace Knuckle.Scarce

open Heap (Addr Cell Mem PosSort posSort pairPtrs locate ptrLt HCtx cellOf store)

/-- What becomes of an allocation: it is granted, or refused; if it is refused to a stream, the stream holds `k` characters. -/
inductive Fate
  | granted
  | refused (k : Nat)
deriving DecidableEq, Repr

/-- What becomes of the allocations to come; all beyond the end of the list are granted. -/
abbrev Supply := List Fate

/-- The next allocation: refused or not, and what becomes of those after it. -/
def ask : Supply → Option Nat × Supply
  | [] => (none, [])
  | .granted :: f => (none, f)
  | .refused k :: f => (some k, f)

/-- What a stream holds of the text inserted. -/
def shortened (t : Str) : Option Nat → Str
  | none => t
  | some k => t.take k

/-! ### Operators as programs -/

/-- How a piece of an operator ends: as in `Heap.Out`; or `std::bad_alloc` is thrown (`oom`); or the elements are left unspecified. -/
inductive Out (σ α : Type)
  | ok (a : α) (s : σ) (m : Mem) (f : Supply)
  | err (e : Exc) (s : σ) (m : Mem) (f : Supply)
  | oom (s : σ) (m : Mem) (f : Supply)
  | unspecified
  | ub

/-- A piece of an operator of an instance with a member `_value` of type `σ`. -/
def M (σ α : Type) : Type := σ → Mem → Supply → Out σ α

section
variable {σ α β : Type}

/-- Sequencing. -/
def M.bind (x : M σ α) (k : α → M σ β) : M σ β := fun s m f => match x s m f with
  | .ok a s m f => k a s m f
  | .err e s m f => .err e s m f
  | .oom s m f => .oom s m f
  | .unspecified => .unspecified
  | .ub => .ub

instance : Monad (M σ) where
  pure a := fun s m f => .ok a s m f
  bind := M.bind

/-- A computation that does not touch memory. -/
def lift (r : Res α) : M σ α := fun s m f => match r with
  | .ok a => .ok a s m f
  | .err e => .err e s m f
  | .ub => .ub

/-- An action on the memory; `none` is undefined behaviour. -/
def act (g : Mem → Option Mem) : M σ Unit := fun s m f => match g m with
  | some m' => .ok () s m' f
  | none => .ub

/-- Undefined behaviour. -/
def undefined : M σ α := fun _ _ _ => .ub

/-- Throw. -/
def raise (e : Exc) : M σ α := fun s m f => .err e s m f

/-- The member `_value`. -/
def value : M σ σ := fun s m f => .ok s s m f

/-- Assign the member `_value`. -/
def assign (s' : σ) : M σ Unit := fun _ m f => .ok () s' m f

/-- An allocation. -/
def alloc : M σ Unit := fun s m f => match ask f with
  | (none, f) => .ok () s m f
  | (some _, f) => .oom s m f

/-- An allocation of a stream into which `t` is inserted: see the head of this file. -/
def streamed (t : Str) : M σ Str := fun s m f => .ok (shortened t (ask f).1) s m (ask f).2

/-- An allocation in a comparison made by `std::sort`: see the head of this file. -/
def sortAlloc : M σ Unit := fun s m f => match ask f with
  | (none, f) => .ok () s m f
  | (some _, _) => .unspecified

/-- Copy an element pointer. -/
def copy (p : Addr) : M σ Unit := act (·.copy p)

/-- Copy several element pointers. -/
def copyAll : List Addr → M σ Unit
  | [] => pure ()
  | p :: ps => do copy p; copyAll ps

/-- Destroy element pointers. -/
def dropAll (ps : List Addr) : M σ Unit := act (·.dropAll ps)

/-- Dereference an element pointer. -/
def deref (p : Addr) : M σ Obj := fun s m f => match m.obj p with
  | some o => .ok o s m f
  | none => .ub

/-- Dereference several element pointers. -/
def derefAll : List Addr → M σ (List Obj)
  | [] => pure []
  | p :: ps => do
    let o ← deref p
    let os ← derefAll ps
    pure (o :: os)

/-- Local pointers `ps` are destroyed when `body` is left, by return or by exception. -/
def scope (ps : List Addr) (body : M σ α) : M σ α := fun s m f => match body s m f with
  | .ok a s m f => match m.dropAll ps with
    | some m' => .ok a s m' f
    | none => .ub
  | .err e s m f => match m.dropAll ps with
    | some m' => .err e s m' f
    | none => .ub
  | .oom s m f => match m.dropAll ps with
    | some m' => .oom s m' f
    | none => .ub
  | .unspecified => .unspecified
  | .ub => .ub

/-- `get_shared_instance`, `src/instance.cpp:42-55`: a new instance. -/
def newShared (type text : Str) : M σ Addr := do
  alloc
  let o ← lift (getSharedInstance type text)
  fun s m f => .ok (m.new (.obj o)).1 s (m.new (.obj o)).2 f

/-- `std::shared_ptr<Instance> instance = get_shared_instance(type, text); body`. -/
def shared (type text : Str) (body : Addr → M σ α) : M σ α := do
  let p ← newShared type text
  scope [p] (body p)

/-- A temporary `std::vector<std::shared_ptr<Instance>>` with copies of `ps`. -/
def temporary (ps : List Addr) (body : M σ α) : M σ α := do
  alloc
  copyAll ps
  scope ps body

/-- Comparisons with `o`: those of strings copy them. -/
def comparing : Obj → M σ Unit
  | .string _ => alloc
  | _ => pure ()

/-- `InstanceIsEqualToComparator`, `src/instance.cpp:85-88`, on pointers. -/
def equal (eps : Fl) (p q : Addr) : M σ Bool := do
  let a ← deref p
  let b ← deref q
  comparing b
  lift (equalTo eps a b)

/-- `representation()` of the object classes, `src/instance.cpp:187-189,259-261,409-411,585-589,750-752`. -/
def objText (prec : Int) (o : Obj) : M σ Str := match o with
  | .float _ => do
    alloc
    let t ← streamed (o.repr prec)
    alloc
    pure t
  | .string _ => do
    alloc
    pure (o.repr prec)
  | _ => pure (o.repr prec)

/-- `instance->representation()` of an element. -/
def text (prec : Int) (p : Addr) : M σ Str := do
  let o ← deref p
  objText prec o

/-- The representations of several elements, each appended to a string. -/
def texts (prec : Int) : List Addr → M σ (List Str)
  | [] => pure []
  | p :: ps => do
    let t ← text prec p
    alloc
    let ts ← texts prec ps
    pure (t :: ts)

/-- `vector_representation`, `src/instance.cpp:57-65`. -/
def vectorText (prec : Int) (ps : List Addr) : M σ Str := do
  let ts ← texts prec ps
  alloc
  pure (c!"[" :: (joinComma ts ++ [c!"]"]))

/-- An operator without arguments. -/
def arg0 (f : M σ Str) : List Str → M σ Str
  | [] => f
  | _ => raise .wrongNumberOfArguments

/-- An operator with one argument. -/
def arg1 (f : Str → M σ Str) : List Str → M σ Str
  | [a] => f a
  | _ => raise .wrongNumberOfArguments

/-- An operator with two arguments. -/
def arg2 (f : Str → Str → M σ Str) : List Str → M σ Str
  | [a, b] => f a b
  | _ => raise .wrongNumberOfArguments

/-- An operator with three arguments. -/
def arg3 (f : Str → Str → Str → M σ Str) : List Str → M σ Str
  | [a, b, c] => f a b c
  | _ => raise .wrongNumberOfArguments

/-- A chain `if (message_name == n) return op(arguments); …`. -/
abbrev Table (σ : Type) := List (Str × (List Str → M σ Str))

/-- First matching row of the table, else `EXC_INVALID_MESSAGE`. -/
def dispatch : Table σ → Str → List Str → M σ Str
  | [], _, _ => raise .invalidMessage
  | (n, op) :: t, name, args => if name == n then op args else dispatch t name args

end

/-! ### VectorInstance -/

/-- The search loops of `src/instance.cpp:1158-1160,1171-1173,1201-1203,1214-1216`. -/
def search {σ : Type} (eps : Fl) (p : Addr) : List Addr → Nat → M σ (Option Nat)
  | [], _ => pure none
  | x :: xs, i => do if ← equal eps x p then pure (some i) else search eps p xs (i + 1)

/-- The counting loop, `src/instance.cpp:1181-1184`. -/
def tally {σ : Type} (eps : Fl) (p : Addr) : List Addr → Nat → M σ Nat
  | [], n => pure n
  | x :: xs, n => do if ← equal eps x p then tally eps p xs (n + 1) else tally eps p xs n

/-- The loop of `op_allIndexesOf`, `src/instance.cpp:1224-1230`. -/
def indexes {σ : Type} (eps : Fl) (p : Addr) : List Addr → Nat → Str → M σ Str
  | [], _, acc => pure acc
  | x :: xs, i, acc => do
    if ← equal eps x p then
      alloc
      indexes eps p xs (i + 1) ((if acc.length > 0 then acc ++ [c!","] else acc) ++ natStr i)
    else indexes eps p xs (i + 1) acc

/-- `src/instance.cpp:1371-1375,1386-1390`: erase the first pointer to an equal element; `pre` has been passed already. -/
def removeFirst (eps : Fl) (p : Addr) (pre : List Addr) : List Addr → M (List Addr) Unit
  | [] => pure ()
  | x :: xs => do
    if ← equal eps x p then
      assign (pre ++ xs)
      dropAll [x]
    else removeFirst eps p (pre ++ [x]) xs

/-- `src/instance.cpp:1398-1402`. -/
def removeAll (eps : Fl) (p : Addr) (pre : List Addr) : List Addr → M (List Addr) Unit
  | [] => pure ()
  | x :: xs => do
    if ← equal eps x p then
      assign (pre ++ xs)
      dropAll [x]
      removeAll eps p pre xs
    else removeAll eps p (pre ++ [x]) xs

/-- `src/instance.cpp:1411-1415,1427-1431`: the assignment `_value[i] = get_shared_instance(…)` releases the pointer that
was there. -/
def replaceFirst (eps : Fl) (et b : Str) (p : Addr) (pre : List Addr) : List Addr → M (List Addr) Unit
  | [] => pure ()
  | x :: xs => do
    if ← equal eps x p then
      let n ← newShared et b
      assign (pre ++ n :: xs)
      dropAll [x]
    else replaceFirst eps et b p (pre ++ [x]) xs

/-- `src/instance.cpp:1440-1442`. -/
def replaceAll (eps : Fl) (et b : Str) (p : Addr) (pre : List Addr) : List Addr → M (List Addr) Unit
  | [] => pure ()
  | x :: xs => do
    if ← equal eps x p then
      let n ← newShared et b
      assign (pre ++ n :: xs)
      dropAll [x]
      replaceAll eps et b p (pre ++ [n]) xs
    else replaceAll eps et b p (pre ++ [x]) xs

/-- `VectorInstance::op_contains`, `src/instance.cpp:1154-1162`. -/
def vecContains (cfg : Cfg) (et : Str) : List Str → M (List Addr) Str := arg1 fun a => shared et a fun p => do
  let s ← value
  let r ← search cfg.eps p s 0
  pure (boolStr r.isSome)

/-- `VectorInstance::op_contains_fromIndex`, `src/instance.cpp:1164-1175`. -/
def vecContainsFrom (cfg : Cfg) (et : Str) : List Str → M (List Addr) Str := arg2 fun a b => shared et a fun p => do
  let i ← lift (integerLit b)
  let s ← value
  lift (checkFrom s.length i)
  let r ← search cfg.eps p (s.drop i.toNat) i.toNat
  pure (boolStr r.isSome)

/-- `VectorInstance::op_count`, `src/instance.cpp:1177-1186`. -/
def vecCount (cfg : Cfg) (et : Str) : List Str → M (List Addr) Str := arg1 fun a => shared et a fun p => do
  let s ← value
  let n ← tally cfg.eps p s 0
  pure (intStr n)

/-- `VectorInstance::op_atIndex`, `src/instance.cpp:1188-1195`. -/
def vecAtIndex (cfg : Cfg) : List Str → M (List Addr) Str := arg1 fun a => do
  let i ← lift (integerLit a)
  let s ← value
  lift (checkAt s.length i)
  match s[i.toNat]? with
  | some p => text cfg.prec p
  | none => undefined

/-- `VectorInstance::op_firstIndexOf`, `src/instance.cpp:1197-1205`. -/
def vecFirstIndexOf (cfg : Cfg) (et : Str) : List Str → M (List Addr) Str := arg1 fun a => shared et a fun p => do
  let s ← value
  let r ← search cfg.eps p s 0
  pure (indexReply r)

/-- `VectorInstance::op_firstIndexOf_fromIndex`, `src/instance.cpp:1207-1218`. -/
def vecFirstIndexOfFrom (cfg : Cfg) (et : Str) : List Str → M (List Addr) Str := arg2 fun a b => shared et a fun p => do
  let i ← lift (integerLit b)
  let s ← value
  lift (checkFrom s.length i)
  let r ← search cfg.eps p (s.drop i.toNat) i.toNat
  pure (indexReply r)

/-- `VectorInstance::op_allIndexesOf`, `src/instance.cpp:1220-1232`. -/
def vecAllIndexesOf (cfg : Cfg) (et : Str) : List Str → M (List Addr) Str := arg1 fun a => shared et a fun p => do
  let s ← value
  let r ← indexes cfg.eps p s 0 []
  alloc
  pure (c!"[" :: (r ++ [c!"]"]))

/-- `VectorInstance::op_first`, `src/instance.cpp:1240-1248`. -/
def vecFirst (cfg : Cfg) : List Str → M (List Addr) Str := arg1 fun a => do
  let n ← lift (integerLit a)
  if n < 0 then raise .invalidArgument
  else do
    let s ← value
    temporary (s.take (min n (s.length : Int)).toNat) (vectorText cfg.prec (s.take (min n (s.length : Int)).toNat))

/-- `VectorInstance::op_last`, `src/instance.cpp:1250-1258`. -/
def vecLast (cfg : Cfg) : List Str → M (List Addr) Str := arg1 fun a => do
  let n ← lift (integerLit a)
  if n < 0 then raise .invalidArgument
  else do
    let s ← value
    temporary (s.drop (s.length - (min n (s.length : Int)).toNat))
      (vectorText cfg.prec (s.drop (s.length - (min n (s.length : Int)).toNat)))

/-- `VectorInstance::op_sliceFromIndex`, `src/instance.cpp:1260-1267`. -/
def vecSlice (cfg : Cfg) : List Str → M (List Addr) Str := arg1 fun a => do
  let i ← lift (integerLit a)
  let s ← value
  lift (checkFrom s.length i)
  temporary (s.drop i.toNat) (vectorText cfg.prec (s.drop i.toNat))

/-- `VectorInstance::op_sliceFromIndex_toIndex`, `src/instance.cpp:1269-1282`. -/
def vecSliceTo (cfg : Cfg) : List Str → M (List Addr) Str := arg2 fun a b => do
  let i ← lift (integerLit a)
  let j ← lift (integerLit b)
  let s ← value
  lift (checkRange s.length i j)
  temporary ((s.take j.toNat).drop i.toNat) (vectorText cfg.prec ((s.take j.toNat).drop i.toNat))

/-- `VectorInstance::op_pushBack`, `src/instance.cpp:1284-1290`. -/
def vecPushBack (et : Str) : List Str → M (List Addr) Str := arg1 fun a => shared et a fun p => do
  let s ← value
  alloc
  copy p
  assign (s ++ [p])
  pure b!"null"

/-- `VectorInstance::op_pushFront`, `src/instance.cpp:1292-1298`. -/
def vecPushFront (et : Str) : List Str → M (List Addr) Str := arg1 fun a => shared et a fun p => do
  let s ← value
  alloc
  copy p
  assign (p :: s)
  pure b!"null"

/-- `instance = _value[i]; _value.erase(…); return instance->representation();`: `rest` is what stays. -/
def takeOut (prec : Int) (p : Addr) (rest : List Addr) : M (List Addr) Str := do
  copy p
  scope [p] do
    assign rest
    dropAll [p]
    text prec p

/-- `VectorInstance::op_popBack`, `src/instance.cpp:1300-1308`. -/
def vecPopBack (cfg : Cfg) : List Str → M (List Addr) Str := arg0 do
  let s ← value
  if s.length == 0 then pure b!"null"
  else match s[s.length - 1]? with
    | some p => takeOut cfg.prec p (s.take (s.length - 1))
    | none => undefined

/-- `VectorInstance::op_popFront`, `src/instance.cpp:1310-1318`. -/
def vecPopFront (cfg : Cfg) : List Str → M (List Addr) Str := arg0 do
  let s ← value
  if s.length == 0 then pure b!"null"
  else match s[0]? with
    | some p => takeOut cfg.prec p (s.drop 1)
    | none => undefined

/-- `VectorInstance::op_popAtIndex`, `src/instance.cpp:1320-1329`. -/
def vecPopAtIndex (cfg : Cfg) : List Str → M (List Addr) Str := arg1 fun a => do
  let i ← lift (integerLit a)
  let s ← value
  lift (checkAt s.length i)
  match s[i.toNat]? with
  | some p => takeOut cfg.prec p (s.take i.toNat ++ s.drop (i.toNat + 1))
  | none => undefined

/-- `VectorInstance::op_insert_beforeIndex`, `src/instance.cpp:1331-1340`. -/
def vecInsert (et : Str) : List Str → M (List Addr) Str := arg2 fun a b => shared et a fun p => do
  let i ← lift (integerLit b)
  let s ← value
  lift (checkFrom s.length i)
  alloc
  copy p
  assign (s.take i.toNat ++ p :: s.drop i.toNat)
  pure b!"null"

/-- `VectorInstance::op_eraseFromIndex`, `src/instance.cpp:1342-1350`. -/
def vecErase : List Str → M (List Addr) Str := arg1 fun a => do
  let i ← lift (integerLit a)
  let s ← value
  lift (checkFrom s.length i)
  assign (s.take i.toNat)
  dropAll (s.drop i.toNat)
  pure b!"null"

/-- `VectorInstance::op_eraseFromIndex_toIndex`, `src/instance.cpp:1352-1365`. -/
def vecEraseTo : List Str → M (List Addr) Str := arg2 fun a b => do
  let i ← lift (integerLit a)
  let j ← lift (integerLit b)
  let s ← value
  lift (checkRange s.length i j)
  assign (s.take i.toNat ++ s.drop j.toNat)
  dropAll ((s.take j.toNat).drop i.toNat)
  pure b!"null"

/-- `VectorInstance::op_removeFirst`, `src/instance.cpp:1367-1377`. -/
def vecRemoveFirst (cfg : Cfg) (et : Str) : List Str → M (List Addr) Str := arg1 fun a => shared et a fun p => do
  let s ← value
  removeFirst cfg.eps p [] s
  pure b!"null"

/-- `VectorInstance::op_removeFirst_fromIndex`, `src/instance.cpp:1379-1392`. -/
def vecRemoveFirstFrom (cfg : Cfg) (et : Str) : List Str → M (List Addr) Str := arg2 fun a b => shared et a fun p => do
  let i ← lift (integerLit b)
  let s ← value
  lift (checkFrom s.length i)
  removeFirst cfg.eps p (s.take i.toNat) (s.drop i.toNat)
  pure b!"null"

/-- `VectorInstance::op_removeAll`, `src/instance.cpp:1394-1404`. -/
def vecRemoveAll (cfg : Cfg) (et : Str) : List Str → M (List Addr) Str := arg1 fun a => shared et a fun p => do
  let s ← value
  removeAll cfg.eps p [] s
  pure b!"null"

/-- `VectorInstance::op_replaceFirst_with`, `src/instance.cpp:1406-1417`. -/
def vecReplaceFirst (cfg : Cfg) (et : Str) : List Str → M (List Addr) Str := arg2 fun a b =>
  shared et a fun p => shared et b fun _ => do
    let s ← value
    replaceFirst cfg.eps et b p [] s
    pure b!"null"

/-- `VectorInstance::op_replaceFirst_fromIndex_with`, `src/instance.cpp:1419-1433`. -/
def vecReplaceFirstFrom (cfg : Cfg) (et : Str) : List Str → M (List Addr) Str := arg3 fun a b c =>
  shared et a fun p => shared et c fun _ => do
    let i ← lift (integerLit b)
    let s ← value
    lift (checkFrom s.length i)
    replaceFirst cfg.eps et c p (s.take i.toNat) (s.drop i.toNat)
    pure b!"null"

/-- `VectorInstance::op_replaceAll_with`, `src/instance.cpp:1435-1444`. -/
def vecReplaceAll (cfg : Cfg) (et : Str) : List Str → M (List Addr) Str := arg2 fun a b =>
  shared et a fun p => shared et b fun _ => do
    let s ← value
    replaceAll cfg.eps et b p [] s
    pure b!"null"

/-- Comparisons made by `std::sort`: those of strings copy them. -/
def sorting : List Obj → M (List Addr) Unit
  | .string _ :: _ :: _ => sortAlloc
  | _ => pure ()

/-- `VectorInstance::op_sort`, `src/instance.cpp:1446-1451` (see `Knuckle.vecSort` for the guards). -/
def vecSort [PosSort] (cfg : Cfg) : List Str → M (List Addr) Str := arg0 do
  let s ← value
  let l ← derefAll s
  if !comparable cfg.eps l then undefined
  else if swoOn (ltB cfg.eps) l then do
    sorting l
    assign (posSort (ltB cfg.eps) l s)
    pure b!"null"
  else undefined

/-- `VectorInstance::op_get`, `src/instance.cpp:1142-1146`. -/
def vecGet (cfg : Cfg) : List Str → M (List Addr) Str := arg0 do
  let s ← value
  vectorText cfg.prec s

/-- `VectorInstance::op_isEmpty`, `src/instance.cpp:1148-1152`. -/
def vecIsEmpty : List Str → M (List Addr) Str := arg0 do
  let s ← value
  pure (boolStr (s.length == 0))

/-- `op_size` of vectors and sets, `src/instance.cpp:1234-1238,1533-1537`. -/
def listSize : List Str → M (List Addr) Str := arg0 do
  let s ← value
  pure (intStr s.length)

/-- `VectorInstance::op_reverse`, `src/instance.cpp:1453-1458`. -/
def vecReverse : List Str → M (List Addr) Str := arg0 do
  let s ← value
  assign s.reverse
  pure b!"null"

/-- `op_clear` of vectors and sets, `src/instance.cpp:1460-1465,1555-1560`. -/
def listClear : List Str → M (List Addr) Str := arg0 do
  let s ← value
  assign []
  dropAll s
  pure b!"null"

/-- `VectorInstance::receive`, `src/instance.cpp:1076-1140`. -/
def vectorTable [PosSort] (cfg : Cfg) (et : Str) : Table (List Addr) := [
  (b!"get", vecGet cfg),
  (b!"isEmpty?", vecIsEmpty),
  (b!"contains?", vecContains cfg et),
  (b!"contains?fromIndex:", vecContainsFrom cfg et),
  (b!"count:", vecCount cfg et),
  (b!"atIndex:", vecAtIndex cfg),
  (b!"firstIndexOf:", vecFirstIndexOf cfg et),
  (b!"firstIndexOf:fromIndex:", vecFirstIndexOfFrom cfg et),
  (b!"allIndexesOf:", vecAllIndexesOf cfg et),
  (b!"size", listSize),
  (b!"first:", vecFirst cfg),
  (b!"last:", vecLast cfg),
  (b!"sliceFromIndex:", vecSlice cfg),
  (b!"sliceFromIndex:toIndex:", vecSliceTo cfg),
  (b!"pushBack:", vecPushBack et),
  (b!"pushFront:", vecPushFront et),
  (b!"popBack", vecPopBack cfg),
  (b!"popFront", vecPopFront cfg),
  (b!"popAtIndex:", vecPopAtIndex cfg),
  (b!"insert:beforeIndex:", vecInsert et),
  (b!"eraseFromIndex:", vecErase),
  (b!"eraseFromIndex:toIndex:", vecEraseTo),
  (b!"removeFirst:", vecRemoveFirst cfg et),
  (b!"removeFirst:fromIndex:", vecRemoveFirstFrom cfg et),
  (b!"removeAll:", vecRemoveAll cfg et),
  (b!"replaceFirst:with:", vecReplaceFirst cfg et),
  (b!"replaceFirst:fromIndex:with:", vecReplaceFirstFrom cfg et),
  (b!"replaceAll:with:", vecReplaceAll cfg et),
  (b!"sort", vecSort cfg),
  (b!"reverse", vecReverse),
  (b!"clear", listClear)]

/-! ### SetInstance -/

/-- The search for the place of the key `p` among the entries `s` with keys `key`.  The precondition of ordered containers
(`orderGuard`) is checked on all entries; the C++ compares the key with some of them, and copies it if it is a string. -/
def find {σ α : Type} (eps : Fl) (key : α → Addr) (p : Addr) (s : List α) : M σ (List α × Option α × List α) := do
  let k ← deref p
  let l ← derefAll (s.map key)
  comparing k
  lift (orderGuard eps l k)
  fun st m f => .ok (locate (fun x => ptrLt eps m (key x) p) (fun x => ptrLt eps m p (key x)) s) st m f

/-- `SetInstance::op_get`, `src/instance.cpp:1486-1494,1514-1518`. -/
def setGet (cfg : Cfg) : List Str → M (List Addr) Str := arg0 do
  let s ← value
  let ts ← texts cfg.prec s
  alloc
  pure (c!"{" :: (joinComma ts ++ [c!"}"]))

/-- `SetInstance::op_isEmpty`, `src/instance.cpp:1520-1524`. -/
def setIsEmpty : List Str → M (List Addr) Str := arg0 do
  let s ← value
  pure (boolStr s.isEmpty)

/-- `SetInstance::op_contains`, `src/instance.cpp:1526-1531`. -/
def setContains (cfg : Cfg) (et : Str) : List Str → M (List Addr) Str := arg1 fun a => shared et a fun p => do
  let s ← value
  let r ← find cfg.eps id p s
  pure (boolStr r.2.1.isSome)

/-- `SetInstance::op_add`, `src/instance.cpp:1539-1545`: the pointer is copied into the set unless an equivalent element
is there. -/
def setAdd (cfg : Cfg) (et : Str) : List Str → M (List Addr) Str := arg1 fun a => shared et a fun p => do
  let s ← value
  let r ← find cfg.eps id p s
  match r.2.1 with
  | some _ => pure b!"null"
  | none => do
    alloc
    copy p
    assign (r.1 ++ p :: r.2.2)
    pure b!"null"

/-- `SetInstance::op_remove`, `src/instance.cpp:1547-1553`. -/
def setRemove (cfg : Cfg) (et : Str) : List Str → M (List Addr) Str := arg1 fun a => shared et a fun p => do
  let s ← value
  let r ← find cfg.eps id p s
  match r.2.1 with
  | some q => do
    assign (r.1 ++ r.2.2)
    dropAll [q]
    pure b!"null"
  | none => pure b!"null"

/-- `SetInstance::receive`, `src/instance.cpp:1496-1512`. -/
def setTable (cfg : Cfg) (et : Str) : Table (List Addr) := [
  (b!"get", setGet cfg),
  (b!"isEmpty?", setIsEmpty),
  (b!"contains?", setContains cfg et),
  (b!"size", listSize),
  (b!"add:", setAdd cfg et),
  (b!"remove:", setRemove cfg et),
  (b!"clear", listClear)]

/-! ### DictionaryInstance -/

/-- The representations of associations, `src/instance.cpp:1585-1589`. -/
def pairTexts {σ : Type} (prec : Int) : List (Addr × Addr) → M σ (List Str)
  | [] => pure []
  | e :: es => do
    let k ← text prec e.1
    let v ← text prec e.2
    alloc
    let ts ← pairTexts prec es
    pure ((c!"(" :: (k ++ (c!"," :: (v ++ [c!")"])))) :: ts)

/-- `DictionaryInstance::op_get`, `src/instance.cpp:1583-1591,1617-1621`. -/
def dictText (cfg : Cfg) : List Str → M (List (Addr × Addr)) Str := arg0 do
  let s ← value
  let ts ← pairTexts cfg.prec s
  alloc
  pure (c!"(" :: (joinComma ts ++ [c!")"]))

/-- `DictionaryInstance::op_isEmpty`, `src/instance.cpp:1623-1627`. -/
def dictIsEmpty : List Str → M (List (Addr × Addr)) Str := arg0 do
  let s ← value
  pure (boolStr s.isEmpty)

/-- `DictionaryInstance::op_containsKey`, `src/instance.cpp:1629-1634`. -/
def dictContains (cfg : Cfg) (kt : Str) : List Str → M (List (Addr × Addr)) Str := arg1 fun a => shared kt a fun p => do
  let s ← value
  let r ← find cfg.eps (·.1) p s
  pure (boolStr r.2.1.isSome)

/-- `DictionaryInstance::op_size`, `src/instance.cpp:1636-1640`. -/
def dictSize : List Str → M (List (Addr × Addr)) Str := arg0 do
  let s ← value
  pure (intStr s.length)

/-- `DictionaryInstance::op_keys`, `src/instance.cpp:1642-1649`. -/
def dictKeys (cfg : Cfg) : List Str → M (List (Addr × Addr)) Str := arg0 do
  let s ← value
  temporary (s.map (·.1)) (vectorText cfg.prec (s.map (·.1)))

/-- `DictionaryInstance::op_values`, `src/instance.cpp:1651-1658`. -/
def dictValues (cfg : Cfg) : List Str → M (List (Addr × Addr)) Str := arg0 do
  let s ← value
  temporary (s.map (·.2)) (vectorText cfg.prec (s.map (·.2)))

/-- `DictionaryInstance::op_getValueForKey`, `src/instance.cpp:1660-1668`. -/
def dictGet (cfg : Cfg) (kt : Str) : List Str → M (List (Addr × Addr)) Str := arg1 fun a => shared kt a fun p => do
  let s ← value
  let r ← find cfg.eps (·.1) p s
  match r.2.1 with
  | some kv => text cfg.prec kv.2
  | none => pure b!"null"

/-- `DictionaryInstance::op_associateValue_withKey`, `src/instance.cpp:1670-1677`: an equivalent key stays and the pointer to
its value is overwritten, otherwise both pointers are copied into a new entry. -/
def dictAssociate (cfg : Cfg) (kt vt : Str) : List Str → M (List (Addr × Addr)) Str := arg2 fun a b =>
  shared vt a fun v => shared kt b fun k => do
    let s ← value
    let r ← find cfg.eps (·.1) k s
    match r.2.1 with
    | some kv => do
      copy v
      assign (r.1 ++ (kv.1, v) :: r.2.2)
      dropAll [kv.2]
      pure b!"null"
    | none => do
      alloc
      copy k
      copy v
      assign (r.1 ++ (k, v) :: r.2.2)
      pure b!"null"

/-- `DictionaryInstance::op_removeKey`, `src/instance.cpp:1679-1685`. -/
def dictRemove (cfg : Cfg) (kt : Str) : List Str → M (List (Addr × Addr)) Str := arg1 fun a => shared kt a fun p => do
  let s ← value
  let r ← find cfg.eps (·.1) p s
  match r.2.1 with
  | some kv => do
    assign (r.1 ++ r.2.2)
    dropAll [kv.1, kv.2]
    pure b!"null"
  | none => pure b!"null"

/-- `DictionaryInstance::op_clear`, `src/instance.cpp:1687-1692`. -/
def dictClear : List Str → M (List (Addr × Addr)) Str := arg0 do
  let s ← value
  assign []
  dropAll (pairPtrs s)
  pure b!"null"

/-- `DictionaryInstance::receive`, `src/instance.cpp:1593-1615`. -/
def dictTable (cfg : Cfg) (kt vt : Str) : Table (List (Addr × Addr)) := [
  (b!"get", dictText cfg),
  (b!"isEmpty?", dictIsEmpty),
  (b!"containsKey?", dictContains cfg kt),
  (b!"size", dictSize),
  (b!"keys", dictKeys cfg),
  (b!"values", dictValues cfg),
  (b!"getValueForKey:", dictGet cfg kt),
  (b!"associateValue:withKey:", dictAssociate cfg kt vt),
  (b!"removeKey:", dictRemove cfg kt),
  (b!"clear", dictClear)]


/-! ### Instances and the context -/

/-- How the execution of a message ends: as in `Run`; or `std::bad_alloc` is thrown; or elements are left unspecified. -/
inductive End (σ : Type)
  | ret (s : σ) (reply : Str) (f : Supply)
  | thr (s : σ) (e : Exc) (f : Supply)
  | oom (s : σ) (f : Supply)
  | unspecified
  | ub

/-- The end of an operator of the container at `p`: its member is in place. -/
def finish {σ : Type} (p : Addr) (g : σ → Cell) : Out σ Str → End Mem
  | .ok r s m f => match store p (g s) m with
    | some m' => .ret m' r f
    | none => .ub
  | .err e s m f => match store p (g s) m with
    | some m' => .thr m' e f
    | none => .ub
  | .oom s m f => match store p (g s) m with
    | some m' => .oom m' f
    | none => .ub
  | .unspecified => .unspecified
  | .ub => .ub

/-- A reply made by `FloatInstance::representation`, `src/instance.cpp:585-589`: it goes through a stream. -/
def printed {σ : Type} (s : σ) (r : Str) (f : Supply) : End σ := match ask (ask f).2 with
  | (none, f') => .ret s (shortened r (ask f).1) f'
  | (some _, f') => .oom s f'

/-- An execution that allocates before it has any effect; its reply is the text of a float if `printing`. -/
def once {σ : Type} (s : σ) (printing : Bool) (run : Run σ) (f : Supply) : End σ := match ask f with
  | (some _, f) => .oom s f
  | (none, f) => match run with
    | .ret s' r => if printing then printed s' r f else .ret s' r f
    | .thr s' e => .thr s' e f
    | .ub => .ub

/-- The messages to objects that reply with the text of a float: `get`, `src/instance.cpp:617-621`. -/
def printsFloat (o : Obj) (name : Str) : Bool := match o with
  | .float _ => name == b!"get"
  | _ => false

/-- The virtual method `Instance::receive`, `src/instance.h:53`, of the instance at `p`. -/
def receive [PosSort] (cfg : Cfg) (p : Addr) (m : Mem) (name : Str) (args : List Str) (f : Supply) : End Mem :=
  match m.cells p with
  | some (.obj o, _) => once m (printsFloat o name) (Heap.finishObj p m (Heap.objReceive cfg o name args)) f
  | some (.vector et l, _) => finish p (.vector et) (dispatch (vectorTable cfg et) name args l m f)
  | some (.set et l, _) => finish p (.set et) (dispatch (setTable cfg et) name args l m f)
  | some (.dictionary kt vt l, _) => finish p (.dictionary kt vt) (dispatch (dictTable cfg kt vt) name args l m f)
  | none => .ub

/-- Release the local pointer `p` and go on. -/
def leaving (h : HCtx) (p : Addr) (r : HCtx → End HCtx) : End HCtx := match h.mem.release p with
  | some m => r { h with mem := m }
  | none => .ub

/-- `Context::execute_in_type`, `src/context.cpp:78-113`: the first allocation is that of the instance (with the strings and, for
dictionaries, the instances made before the last one), the second that of the entry of the map; if it fails, the local pointer is
released. -/
def executeInType (h : HCtx) (p : Parsed) (f : Supply) : End HCtx := match ask f with
  | (some _, f) => .oom h f
  | (none, f) => match makeInstance p.actor p.name p.args with
    | .err e => .thr h e f
    | .ub => .ub
    | .ok none => .ub
    | .ok (some (n, i)) =>
      let q := (h.mem.new (cellOf i)).1
      let h' := { h with mem := (h.mem.new (cellOf i)).2 }
      match mapFind strLt n h.vars with
      | none => match ask f with
        | (some _, f) => leaving h' q (.oom · f)
        | (none, f) => match h'.mem.copy q with
          | some m => leaving { h' with vars := mapInsert strLt n q h.vars, mem := m } q (.ret · b!"null" f)
          | none => .ub
      | some _ =>
        if startsWith p.name b!"createIfNotExists:" then leaving h' q (.ret · b!"null" f)
        else leaving h' q (.thr · .nameAlreadyUsed f)

/-- `Context::execute_in_context`, `src/context.cpp:115-136`, and its operators, `src/context.cpp:175-273`: all allocations come before
the effect. -/
def executeInContext (h : HCtx) (p : Parsed) (f : Supply) : End HCtx :=
  once h (p.name == b!"getFloatComparisonTolerance") (Knuckle.dispatch h (Heap.contextTable h) p.name p.args) f

/-- `Context::execute_in_variable`, `src/context.cpp:138-143`. -/
def executeInVariable [PosSort] (h : HCtx) (p : Parsed) (f : Supply) : End HCtx :=
  match mapFind strLt p.actor h.vars with
  | none => .thr h .unexistentVariable f
  | some q => match receive h.cfg q h.mem p.name p.args f with
    | .ret m r f => .ret { h with mem := m } r f
    | .thr m e f => .thr { h with mem := m } e f
    | .oom m f => .oom { h with mem := m } f
    | .unspecified => .unspecified
    | .ub => .ub

/-- The end of a request to a type, the context or a variable: the session is as before. -/
def keep {σ : Type} (s : Option Session) : End σ → End (σ × Option Session)
  | .ret c r f => .ret (c, s) r f
  | .thr c e f => .thr (c, s) e f
  | .oom c f => .oom (c, s) f
  | .unspecified => .unspecified
  | .ub => .ub

/-- `Session::receive`, `src/server.cpp:91-108`, through the `shared_ptr` of line 157 of `src/context.cpp`: all allocations come before the
effect. -/
def executeInConnection (pwd : Str) (h : HCtx) (s : Session) (p : Parsed) (f : Supply) : End (HCtx × Option Session) :=
  match once s false (s.receive pwd p.name p.args) f with
  | .ret s r f => .ret (h, some s) r f
  | .thr s e f => .thr (h, some s) e f
  | .oom s f => .oom (h, some s) f
  | .unspecified => .unspecified
  | .ub => .ub

/-- The `if` chain of `Context::execute`, `src/context.cpp:150-157`. -/
def executeParsed [PosSort] (pwd : Str) (h : HCtx) (s : Option Session) (p : Parsed) (f : Supply) : End (HCtx × Option Session) :=
  if isType p.actor then keep s (executeInType h p f)
  else if isContext p.actor then keep s (executeInContext h p f)
  else if isVariable p.actor then keep s (executeInVariable h p f)
  else if isConnection p.actor then
    match s with
    | none => .ub
    | some s => executeInConnection pwd h s p f
  else .ret (h, s) [] f

/-- How `Context::execute` ends: with a reply; or an exception leaves it, which ends the process (nothing above catches it,
`src/server.cpp:110-147`, `src/knuckleball.cpp:72-76`); or elements are left unspecified; or undefined behaviour. -/
inductive Ending
  | done (h : HCtx) (s : Option Session) (reply : Str)
  | dies
  | unspecified
  | ub

/-- The log record, `src/context.cpp:165-171`: `trim` allocates, outside the `try` block. -/
def logged (h : HCtx) (s : Option Session) (input r : Str) (f : Supply) : Ending :=
  if h.fileOpen || !h.quiet then match (ask f).1 with
    | some _ => .dies
    | none => .done (h.record input r) s r
  else .done h s r

/-- `output = std::string(exception)` in a handler, `src/context.cpp:159-164`, outside the `try` block. -/
def caught (h : HCtx) (s : Option Session) (input : Str) (e : Exc) (f : Supply) : Ending := match ask f with
  | (some _, _) => .dies
  | (none, f) => logged h s input e.text f

/-- `Context::execute`, `src/context.cpp:145-173`; the first allocation is that of the parser. -/
def execute [PosSort] (pwd : Str) (h : HCtx) (s : Option Session) (input : Str) (f : Supply) : Ending := match ask f with
  | (some _, f) => caught h s input .unknown f
  | (none, f) => match parse input with
    | .ub => .ub
    | .err e => caught h s input e f
    | .ok p => match executeParsed pwd h s p f with
      | .ub => .ub
      | .unspecified => .unspecified
      | .ret (h', s') r f => logged h' s' input r f
      | .thr (h', s') e f => caught h' s' input e f
      | .oom (h', s') f => caught h' s' input .unknown f

end Knuckle.Scarce
