/-
A second, lower model of `src/instance.cpp` and `src/context.cpp`: the instances live in memory and are reached through
`std::shared_ptr`.  `Verif.Model.Instance` and `Verif.Model.Context` treat instances as values; here

* an instance is a cell of the memory, with the number of shared pointers to it;
* a container holds addresses of its elements, the context maps names to addresses;
* copying a pointer increments the count, destroying or overwriting one decrements it, and the last one destroys the
  instance (and, if it is a container, the pointers it holds);
* dereferencing or releasing a pointer to an instance that is gone is undefined behaviour;
* a local `std::shared_ptr` is released when its scope is left, by a return or by an exception.

Simplifications.  An address is never used again after its instance is gone (the standard makes any use of such an
address undefined, whether or not the allocator hands it out again).  The member `_value` of a container is written back
to its cell at the end of the operator; nothing else reads it in between.  Objects on the stack, such as
`IntegerInstance(arguments[1])`, and moves of pointers, which change no count, are not shown.  Strings, the nodes of
`std::set`/`std::map` and the storage of `std::vector` are not counted.  Allocation always succeeds.
-/
import Verif.Model.Context

namespace Knuckle.Heap

/-- The target of a `std::shared_ptr<Instance>`. -/
abbrev Addr := Nat

/-- An instance in memory: `src/instance.h:86-259` (`obj`), `262-265`, `313-316`, `339-343`. -/
inductive Cell
  | obj (o : Obj)
  | vector (elementType : Str) (l : List Addr)
  | set (elementType : Str) (l : List Addr)
  | dictionary (keyType valueType : Str) (l : List (Addr × Addr))
deriving DecidableEq, Repr

/-- The pointers held by a dictionary: to its keys and to its values. -/
def pairPtrs (l : List (Addr × Addr)) : List Addr := l.flatMap fun kv => [kv.1, kv.2]

/-- The pointers held by an instance: the destructors `src/instance.cpp:1069-1070,1483-1484,1580-1581` destroy them. -/
def Cell.children : Cell → List Addr
  | .obj _ => []
  | .vector _ l => l
  | .set _ l => l
  | .dictionary _ _ l => pairPtrs l

/-- The memory: for every address the instance there, if any, and the number of shared pointers to it; addresses from
`next` on were never used. -/
structure Mem where
  next : Addr
  cells : Addr → Option (Cell × Nat)

/-- The memory at the start. -/
def Mem.empty : Mem := ⟨0, fun _ => none⟩

/-- Overwrite one address. -/
def Mem.put (m : Mem) (p : Addr) (c : Option (Cell × Nat)) : Mem :=
  { m with cells := fun q => if q = p then c else m.cells q }

/-- `std::make_shared`: one pointer to the new instance. -/
def Mem.new (m : Mem) (c : Cell) : Addr × Mem :=
  (m.next, { next := m.next + 1, cells := fun q => if q = m.next then some (c, 1) else m.cells q })

/-- Copying a `std::shared_ptr`. -/
def Mem.copy (m : Mem) (p : Addr) : Option Mem := match m.cells p with
  | some (c, n) => some (m.put p (some (c, n + 1)))
  | none => none

/-- Destroying a `std::shared_ptr` to an element.  Elements are objects without pointers; anything else is counted as
undefined behaviour (proved unreachable). -/
def Mem.drop (m : Mem) (p : Addr) : Option Mem := match m.cells p with
  | some (.obj _, 1) => some (m.put p none)
  | some (.obj o, n + 2) => some (m.put p (some (.obj o, n + 1)))
  | _ => none

/-- Destroying several pointers to elements. -/
def Mem.dropAll (m : Mem) : List Addr → Option Mem
  | [] => some m
  | p :: ps => match m.drop p with
    | some m' => m'.dropAll ps
    | none => none

/-- Destroying a `std::shared_ptr` to a variable's instance: the last one destroys the instance and what it holds. -/
def Mem.release (m : Mem) (p : Addr) : Option Mem := match m.cells p with
  | some (c, 1) => (m.put p none).dropAll c.children
  | some (c, n + 2) => some (m.put p (some (c, n + 1)))
  | _ => none

/-- The object an element pointer leads to. -/
def Mem.obj (m : Mem) (p : Addr) : Option Obj := match m.cells p with
  | some (.obj o, _) => some o
  | _ => none

/-! ### Operators as programs -/

/-- How a piece of an operator ends: the member `_value` (of type `σ`) and the memory are left changed whether it
completes or throws. -/
inductive Out (σ α : Type)
  | ok (a : α) (s : σ) (m : Mem)
  | err (e : Exc) (s : σ) (m : Mem)
  | ub

/-- A piece of an operator of an instance with a member `_value` of type `σ`. -/
def M (σ α : Type) : Type := σ → Mem → Out σ α

section
variable {σ α β : Type}

/-- Sequencing. -/
def M.bind (x : M σ α) (f : α → M σ β) : M σ β := fun s m => match x s m with
  | .ok a s m => f a s m
  | .err e s m => .err e s m
  | .ub => .ub

instance : Monad (M σ) where
  pure a := fun s m => .ok a s m
  bind := M.bind

/-- A computation that does not touch memory. -/
def lift (r : Res α) : M σ α := fun s m => match r with
  | .ok a => .ok a s m
  | .err e => .err e s m
  | .ub => .ub

/-- An action on the memory; `none` is undefined behaviour. -/
def act (f : Mem → Option Mem) : M σ Unit := fun s m => match f m with
  | some m' => .ok () s m'
  | none => .ub

/-- Undefined behaviour. -/
def undefined : M σ α := fun _ _ => .ub

/-- Throw. -/
def raise (e : Exc) : M σ α := fun s m => .err e s m

/-- The member `_value`. -/
def value : M σ σ := fun s m => .ok s s m

/-- Assign the member `_value`. -/
def assign (s' : σ) : M σ Unit := fun _ m => .ok () s' m

/-- Copy an element pointer. -/
def copy (p : Addr) : M σ Unit := act (·.copy p)

/-- Copy several element pointers. -/
def copyAll : List Addr → M σ Unit
  | [] => pure ()
  | p :: ps => do copy p; copyAll ps

/-- Destroy element pointers. -/
def dropAll (ps : List Addr) : M σ Unit := act (·.dropAll ps)

/-- Dereference an element pointer. -/
def deref (p : Addr) : M σ Obj := fun s m => match m.obj p with
  | some o => .ok o s m
  | none => .ub

/-- Dereference several element pointers. -/
def derefAll : List Addr → M σ (List Obj)
  | [] => pure []
  | p :: ps => do
    let o ← deref p
    let os ← derefAll ps
    pure (o :: os)

/-- Local pointers `ps` are destroyed when `body` is left, by return or by exception. -/
def scope (ps : List Addr) (body : M σ α) : M σ α := fun s m => match body s m with
  | .ok a s m => match m.dropAll ps with
    | some m' => .ok a s m'
    | none => .ub
  | .err e s m => match m.dropAll ps with
    | some m' => .err e s m'
    | none => .ub
  | .ub => .ub

/-- `get_shared_instance`, `src/instance.cpp:42-55`: a new instance (for an unknown type see `getSharedInstance`). -/
def newShared (type text : Str) : M σ Addr := do
  let o ← lift (getSharedInstance type text)
  fun s m => .ok (m.new (.obj o)).1 s (m.new (.obj o)).2

/-- `std::shared_ptr<Instance> instance = get_shared_instance(type, text); body`. -/
def shared (type text : Str) (body : Addr → M σ α) : M σ α := do
  let p ← newShared type text
  scope [p] (body p)

/-- A temporary `std::vector<std::shared_ptr<Instance>>` with copies of `ps`. -/
def temporary (ps : List Addr) (body : M σ α) : M σ α := do
  copyAll ps
  scope ps body

/-- `InstanceIsEqualToComparator`, `src/instance.cpp:85-88`, on pointers. -/
def equal (eps : Fl) (p q : Addr) : M σ Bool := do
  let a ← deref p
  let b ← deref q
  lift (equalTo eps a b)

/-- `vector_representation`, `src/instance.cpp:57-65`. -/
def vectorText (prec : Int) (ps : List Addr) : M σ Str := do
  let l ← derefAll ps
  pure (vectorRepr prec l)

/-- `instance->representation()` of an element. -/
def text (prec : Int) (p : Addr) : M σ Str := do
  let o ← deref p
  pure (o.repr prec)

/-- An operator without arguments. -/
def arg0 (f : M σ Str) : List Str → M σ Str
  | [] => f
  | _ => raise .wrongNumberOfArguments

/-- An operator with one argument. -/
def arg1 (f : Str → M σ Str) : List Str → M σ Str
  | [a] => f a
  | _ => raise .wrongNumberOfArguments

/-- An operator with two arguments. -/
def arg2 (f : Str → Str → M σ Str) : List Str → M σ Str
  | [a, b] => f a b
  | _ => raise .wrongNumberOfArguments

/-- An operator with three arguments. -/
def arg3 (f : Str → Str → Str → M σ Str) : List Str → M σ Str
  | [a, b, c] => f a b c
  | _ => raise .wrongNumberOfArguments

/-- A chain `if (message_name == n) return op(arguments); …`. -/
abbrev Table (σ : Type) := List (Str × (List Str → M σ Str))

/-- First matching row of the table, else `EXC_INVALID_MESSAGE`. -/
def dispatch : Table σ → Str → List Str → M σ Str
  | [], _, _ => raise .invalidMessage
  | (n, op) :: t, name, args => if name == n then op args else dispatch t name args

end

/-! ### VectorInstance -/

/-- The search loops of `src/instance.cpp:1158-1160,1171-1173,1201-1203,1214-1216`. -/
def search {σ : Type} (eps : Fl) (p : Addr) : List Addr → Nat → M σ (Option Nat)
  | [], _ => pure none
  | x :: xs, i => do if ← equal eps x p then pure (some i) else search eps p xs (i + 1)

/-- The counting loop, `src/instance.cpp:1181-1184`. -/
def tally {σ : Type} (eps : Fl) (p : Addr) : List Addr → Nat → M σ Nat
  | [], n => pure n
  | x :: xs, n => do if ← equal eps x p then tally eps p xs (n + 1) else tally eps p xs n

/-- The loop of `op_allIndexesOf`, `src/instance.cpp:1224-1230`. -/
def indexes {σ : Type} (eps : Fl) (p : Addr) : List Addr → Nat → Str → M σ Str
  | [], _, acc => pure acc
  | x :: xs, i, acc => do
    if ← equal eps x p then
      indexes eps p xs (i + 1) ((if acc.length > 0 then acc ++ [c!","] else acc) ++ natStr i)
    else indexes eps p xs (i + 1) acc

/-- `src/instance.cpp:1371-1375,1386-1390`: erase the first pointer to an equal element; `pre` has been passed already. -/
def removeFirst (eps : Fl) (p : Addr) (pre : List Addr) : List Addr → M (List Addr) Unit
  | [] => pure ()
  | x :: xs => do
    if ← equal eps x p then
      assign (pre ++ xs)
      dropAll [x]
    else removeFirst eps p (pre ++ [x]) xs

/-- `src/instance.cpp:1398-1402`. -/
def removeAll (eps : Fl) (p : Addr) (pre : List Addr) : List Addr → M (List Addr) Unit
  | [] => pure ()
  | x :: xs => do
    if ← equal eps x p then
      assign (pre ++ xs)
      dropAll [x]
      removeAll eps p pre xs
    else removeAll eps p (pre ++ [x]) xs

/-- `src/instance.cpp:1411-1415,1427-1431`: the assignment `_value[i] = get_shared_instance(…)` releases the pointer that
was there. -/
def replaceFirst (eps : Fl) (et b : Str) (p : Addr) (pre : List Addr) : List Addr → M (List Addr) Unit
  | [] => pure ()
  | x :: xs => do
    if ← equal eps x p then
      let n ← newShared et b
      assign (pre ++ n :: xs)
      dropAll [x]
    else replaceFirst eps et b p (pre ++ [x]) xs

/-- `src/instance.cpp:1440-1442`. -/
def replaceAll (eps : Fl) (et b : Str) (p : Addr) (pre : List Addr) : List Addr → M (List Addr) Unit
  | [] => pure ()
  | x :: xs => do
    if ← equal eps x p then
      let n ← newShared et b
      assign (pre ++ n :: xs)
      dropAll [x]
      replaceAll eps et b p (pre ++ [n]) xs
    else replaceAll eps et b p (pre ++ [x]) xs

/-- `VectorInstance::op_contains`, `src/instance.cpp:1154-1162`. -/
def vecContains (cfg : Cfg) (et : Str) : List Str → M (List Addr) Str := arg1 fun a => shared et a fun p => do
  let s ← value
  let r ← search cfg.eps p s 0
  pure (boolStr r.isSome)

/-- `VectorInstance::op_contains_fromIndex`, `src/instance.cpp:1164-1175`. -/
def vecContainsFrom (cfg : Cfg) (et : Str) : List Str → M (List Addr) Str := arg2 fun a b => shared et a fun p => do
  let i ← lift (integerLit b)
  let s ← value
  lift (checkFrom s.length i)
  let r ← search cfg.eps p (s.drop i.toNat) i.toNat
  pure (boolStr r.isSome)

/-- `VectorInstance::op_count`, `src/instance.cpp:1177-1186`. -/
def vecCount (cfg : Cfg) (et : Str) : List Str → M (List Addr) Str := arg1 fun a => shared et a fun p => do
  let s ← value
  let n ← tally cfg.eps p s 0
  pure (intStr n)

/-- `VectorInstance::op_atIndex`, `src/instance.cpp:1188-1195`. -/
def vecAtIndex (cfg : Cfg) : List Str → M (List Addr) Str := arg1 fun a => do
  let i ← lift (integerLit a)
  let s ← value
  lift (checkAt s.length i)
  match s[i.toNat]? with
  | some p => text cfg.prec p
  | none => undefined

/-- `VectorInstance::op_firstIndexOf`, `src/instance.cpp:1197-1205`. -/
def vecFirstIndexOf (cfg : Cfg) (et : Str) : List Str → M (List Addr) Str := arg1 fun a => shared et a fun p => do
  let s ← value
  let r ← search cfg.eps p s 0
  pure (indexReply r)

/-- `VectorInstance::op_firstIndexOf_fromIndex`, `src/instance.cpp:1207-1218`. -/
def vecFirstIndexOfFrom (cfg : Cfg) (et : Str) : List Str → M (List Addr) Str := arg2 fun a b => shared et a fun p => do
  let i ← lift (integerLit b)
  let s ← value
  lift (checkFrom s.length i)
  let r ← search cfg.eps p (s.drop i.toNat) i.toNat
  pure (indexReply r)

/-- `VectorInstance::op_allIndexesOf`, `src/instance.cpp:1220-1232`. -/
def vecAllIndexesOf (cfg : Cfg) (et : Str) : List Str → M (List Addr) Str := arg1 fun a => shared et a fun p => do
  let s ← value
  let r ← indexes cfg.eps p s 0 []
  pure (c!"[" :: (r ++ [c!"]"]))

/-- `VectorInstance::op_first`, `src/instance.cpp:1240-1248`. -/
def vecFirst (cfg : Cfg) : List Str → M (List Addr) Str := arg1 fun a => do
  let n ← lift (integerLit a)
  if n < 0 then raise .invalidArgument
  else do
    let s ← value
    temporary (s.take (min n (s.length : Int)).toNat) (vectorText cfg.prec (s.take (min n (s.length : Int)).toNat))

/-- `VectorInstance::op_last`, `src/instance.cpp:1250-1258`. -/
def vecLast (cfg : Cfg) : List Str → M (List Addr) Str := arg1 fun a => do
  let n ← lift (integerLit a)
  if n < 0 then raise .invalidArgument
  else do
    let s ← value
    temporary (s.drop (s.length - (min n (s.length : Int)).toNat))
      (vectorText cfg.prec (s.drop (s.length - (min n (s.length : Int)).toNat)))

/-- `VectorInstance::op_sliceFromIndex`, `src/instance.cpp:1260-1267`. -/
def vecSlice (cfg : Cfg) : List Str → M (List Addr) Str := arg1 fun a => do
  let i ← lift (integerLit a)
  let s ← value
  lift (checkFrom s.length i)
  temporary (s.drop i.toNat) (vectorText cfg.prec (s.drop i.toNat))

/-- `VectorInstance::op_sliceFromIndex_toIndex`, `src/instance.cpp:1269-1282`. -/
def vecSliceTo (cfg : Cfg) : List Str → M (List Addr) Str := arg2 fun a b => do
  let i ← lift (integerLit a)
  let j ← lift (integerLit b)
  let s ← value
  lift (checkRange s.length i j)
  temporary ((s.take j.toNat).drop i.toNat) (vectorText cfg.prec ((s.take j.toNat).drop i.toNat))

/-- `VectorInstance::op_pushBack`, `src/instance.cpp:1284-1290`. -/
def vecPushBack (et : Str) : List Str → M (List Addr) Str := arg1 fun a => shared et a fun p => do
  let s ← value
  copy p
  assign (s ++ [p])
  pure b!"null"

/-- `VectorInstance::op_pushFront`, `src/instance.cpp:1292-1298`. -/
def vecPushFront (et : Str) : List Str → M (List Addr) Str := arg1 fun a => shared et a fun p => do
  let s ← value
  copy p
  assign (p :: s)
  pure b!"null"

/-- `instance = _value[i]; _value.erase(…); return instance->representation();`: `rest` is what stays. -/
def takeOut (prec : Int) (p : Addr) (rest : List Addr) : M (List Addr) Str := do
  copy p
  scope [p] do
    assign rest
    dropAll [p]
    text prec p

/-- `VectorInstance::op_popBack`, `src/instance.cpp:1300-1308`. -/
def vecPopBack (cfg : Cfg) : List Str → M (List Addr) Str := arg0 do
  let s ← value
  if s.length == 0 then pure b!"null"
  else match s[s.length - 1]? with
    | some p => takeOut cfg.prec p (s.take (s.length - 1))
    | none => undefined

/-- `VectorInstance::op_popFront`, `src/instance.cpp:1310-1318`. -/
def vecPopFront (cfg : Cfg) : List Str → M (List Addr) Str := arg0 do
  let s ← value
  if s.length == 0 then pure b!"null"
  else match s[0]? with
    | some p => takeOut cfg.prec p (s.drop 1)
    | none => undefined

/-- `VectorInstance::op_popAtIndex`, `src/instance.cpp:1320-1329`. -/
def vecPopAtIndex (cfg : Cfg) : List Str → M (List Addr) Str := arg1 fun a => do
  let i ← lift (integerLit a)
  let s ← value
  lift (checkAt s.length i)
  match s[i.toNat]? with
  | some p => takeOut cfg.prec p (s.take i.toNat ++ s.drop (i.toNat + 1))
  | none => undefined

/-- `VectorInstance::op_insert_beforeIndex`, `src/instance.cpp:1331-1340`. -/
def vecInsert (et : Str) : List Str → M (List Addr) Str := arg2 fun a b => shared et a fun p => do
  let i ← lift (integerLit b)
  let s ← value
  lift (checkFrom s.length i)
  copy p
  assign (s.take i.toNat ++ p :: s.drop i.toNat)
  pure b!"null"

/-- `VectorInstance::op_eraseFromIndex`, `src/instance.cpp:1342-1350`. -/
def vecErase : List Str → M (List Addr) Str := arg1 fun a => do
  let i ← lift (integerLit a)
  let s ← value
  lift (checkFrom s.length i)
  assign (s.take i.toNat)
  dropAll (s.drop i.toNat)
  pure b!"null"

/-- `VectorInstance::op_eraseFromIndex_toIndex`, `src/instance.cpp:1352-1365`. -/
def vecEraseTo : List Str → M (List Addr) Str := arg2 fun a b => do
  let i ← lift (integerLit a)
  let j ← lift (integerLit b)
  let s ← value
  lift (checkRange s.length i j)
  assign (s.take i.toNat ++ s.drop j.toNat)
  dropAll ((s.take j.toNat).drop i.toNat)
  pure b!"null"

/-- `VectorInstance::op_removeFirst`, `src/instance.cpp:1367-1377`. -/
def vecRemoveFirst (cfg : Cfg) (et : Str) : List Str → M (List Addr) Str := arg1 fun a => shared et a fun p => do
  let s ← value
  removeFirst cfg.eps p [] s
  pure b!"null"

/-- `VectorInstance::op_removeFirst_fromIndex`, `src/instance.cpp:1379-1392`. -/
def vecRemoveFirstFrom (cfg : Cfg) (et : Str) : List Str → M (List Addr) Str := arg2 fun a b => shared et a fun p => do
  let i ← lift (integerLit b)
  let s ← value
  lift (checkFrom s.length i)
  removeFirst cfg.eps p (s.take i.toNat) (s.drop i.toNat)
  pure b!"null"

/-- `VectorInstance::op_removeAll`, `src/instance.cpp:1394-1404`. -/
def vecRemoveAll (cfg : Cfg) (et : Str) : List Str → M (List Addr) Str := arg1 fun a => shared et a fun p => do
  let s ← value
  removeAll cfg.eps p [] s
  pure b!"null"

/-- `VectorInstance::op_replaceFirst_with`, `src/instance.cpp:1406-1417`. -/
def vecReplaceFirst (cfg : Cfg) (et : Str) : List Str → M (List Addr) Str := arg2 fun a b =>
  shared et a fun p => shared et b fun _ => do
    let s ← value
    replaceFirst cfg.eps et b p [] s
    pure b!"null"

/-- `VectorInstance::op_replaceFirst_fromIndex_with`, `src/instance.cpp:1419-1433`. -/
def vecReplaceFirstFrom (cfg : Cfg) (et : Str) : List Str → M (List Addr) Str := arg3 fun a b c =>
  shared et a fun p => shared et c fun _ => do
    let i ← lift (integerLit b)
    let s ← value
    lift (checkFrom s.length i)
    replaceFirst cfg.eps et c p (s.take i.toNat) (s.drop i.toNat)
    pure b!"null"

/-- `VectorInstance::op_replaceAll_with`, `src/instance.cpp:1435-1444`. -/
def vecReplaceAll (cfg : Cfg) (et : Str) : List Str → M (List Addr) Str := arg2 fun a b =>
  shared et a fun p => shared et b fun _ => do
    let s ← value
    replaceAll cfg.eps et b p [] s
    pure b!"null"

/-- `std::sort` on pointers.  It is a template that sees the elements only through the comparator, so what it does is a
function of the outcomes of the comparisons between positions: the order in which the positions are left.  When these
outcomes are a strict weak order, that is a rearrangement of the positions in non-descending order. -/
class PosSort where
  order : Nat → (Nat → Nat → Bool) → List Nat
  perm : ∀ n lt, (∀ a < n, lt a a = false) →
    (∀ a < n, ∀ b < n, ∀ c < n, lt a b = true → lt b c = true → lt a c = true) →
    (∀ a < n, ∀ b < n, ∀ c < n, lt a b = false → lt b a = false → lt b c = false → lt c b = false →
      lt a c = false ∧ lt c a = false) →
    (order n lt).Perm (List.range n)
  sorted : ∀ n lt, (∀ a < n, lt a a = false) →
    (∀ a < n, ∀ b < n, ∀ c < n, lt a b = true → lt b c = true → lt a c = true) →
    (∀ a < n, ∀ b < n, ∀ c < n, lt a b = false → lt b a = false → lt b c = false → lt c b = false →
      lt a c = false ∧ lt c a = false) →
    (order n lt).Pairwise fun a b => lt b a = false

/-- The outcome of comparing positions of a list. -/
def posLt {α : Type} (lt : α → α → Bool) (l : List α) (i j : Nat) : Bool := match l[i]?, l[j]? with
  | some a, some b => lt a b
  | _, _ => false

/-- A list with its positions put in the order chosen by `std::sort`. -/
def posSort [PosSort] {α β : Type} (lt : α → α → Bool) (keys : List α) (l : List β) : List β :=
  (PosSort.order keys.length (posLt lt keys)).filterMap (l[·]?)

/-- `VectorInstance::op_sort`, `src/instance.cpp:1446-1451` (see `Knuckle.vecSort` for the guards). -/
def vecSort [PosSort] (cfg : Cfg) : List Str → M (List Addr) Str := arg0 do
  let s ← value
  let l ← derefAll s
  if !comparable cfg.eps l then undefined
  else if swoOn (ltB cfg.eps) l then do
    assign (posSort (ltB cfg.eps) l s)
    pure b!"null"
  else undefined

/-- `VectorInstance::op_get`, `src/instance.cpp:1142-1146`. -/
def vecGet (cfg : Cfg) : List Str → M (List Addr) Str := arg0 do
  let s ← value
  vectorText cfg.prec s

/-- `VectorInstance::op_isEmpty`, `src/instance.cpp:1148-1152`. -/
def vecIsEmpty : List Str → M (List Addr) Str := arg0 do
  let s ← value
  pure (boolStr (s.length == 0))

/-- `op_size` of vectors and sets, `src/instance.cpp:1234-1238,1533-1537`. -/
def listSize : List Str → M (List Addr) Str := arg0 do
  let s ← value
  pure (intStr s.length)

/-- `VectorInstance::op_reverse`, `src/instance.cpp:1453-1458`. -/
def vecReverse : List Str → M (List Addr) Str := arg0 do
  let s ← value
  assign s.reverse
  pure b!"null"

/-- `op_clear` of vectors and sets, `src/instance.cpp:1460-1465,1555-1560`. -/
def listClear : List Str → M (List Addr) Str := arg0 do
  let s ← value
  assign []
  dropAll s
  pure b!"null"

/-- `VectorInstance::receive`, `src/instance.cpp:1076-1140`. -/
def vectorTable [PosSort] (cfg : Cfg) (et : Str) : Table (List Addr) := [
  (b!"get", vecGet cfg),
  (b!"isEmpty?", vecIsEmpty),
  (b!"contains?", vecContains cfg et),
  (b!"contains?fromIndex:", vecContainsFrom cfg et),
  (b!"count:", vecCount cfg et),
  (b!"atIndex:", vecAtIndex cfg),
  (b!"firstIndexOf:", vecFirstIndexOf cfg et),
  (b!"firstIndexOf:fromIndex:", vecFirstIndexOfFrom cfg et),
  (b!"allIndexesOf:", vecAllIndexesOf cfg et),
  (b!"size", listSize),
  (b!"first:", vecFirst cfg),
  (b!"last:", vecLast cfg),
  (b!"sliceFromIndex:", vecSlice cfg),
  (b!"sliceFromIndex:toIndex:", vecSliceTo cfg),
  (b!"pushBack:", vecPushBack et),
  (b!"pushFront:", vecPushFront et),
  (b!"popBack", vecPopBack cfg),
  (b!"popFront", vecPopFront cfg),
  (b!"popAtIndex:", vecPopAtIndex cfg),
  (b!"insert:beforeIndex:", vecInsert et),
  (b!"eraseFromIndex:", vecErase),
  (b!"eraseFromIndex:toIndex:", vecEraseTo),
  (b!"removeFirst:", vecRemoveFirst cfg et),
  (b!"removeFirst:fromIndex:", vecRemoveFirstFrom cfg et),
  (b!"removeAll:", vecRemoveAll cfg et),
  (b!"replaceFirst:with:", vecReplaceFirst cfg et),
  (b!"replaceFirst:fromIndex:with:", vecReplaceFirstFrom cfg et),
  (b!"replaceAll:with:", vecReplaceAll cfg et),
  (b!"sort", vecSort cfg),
  (b!"reverse", vecReverse),
  (b!"clear", listClear)]

/-! ### SetInstance -/

/-- The search in an ordered container: the part before the place of the key, an equivalent entry if there is one, and
the part after it. -/
def locate {α : Type} (before after : α → Bool) : List α → List α × Option α × List α
  | [] => ([], none, [])
  | x :: xs =>
    if before x then (x :: (locate before after xs).1, (locate before after xs).2)
    else if after x then ([], none, x :: xs)
    else ([], some x, xs)

/-- `InstanceIsLessThanComparator`, `src/instance.cpp:92-115`, on pointers (after `guard`, which says that it does not throw). -/
def ptrLt (eps : Fl) (m : Mem) (p q : Addr) : Bool := match m.obj p, m.obj q with
  | some a, some b => ltB eps a b
  | _, _ => false

/-- The search for the place of the key `p` among the entries `s` with keys `key`.  The precondition of ordered containers
(`orderGuard`) is checked on all entries; the C++ compares the key with some of them. -/
def find {σ α : Type} (eps : Fl) (key : α → Addr) (p : Addr) (s : List α) : M σ (List α × Option α × List α) := do
  let k ← deref p
  let l ← derefAll (s.map key)
  lift (orderGuard eps l k)
  fun st m => .ok (locate (fun x => ptrLt eps m (key x) p) (fun x => ptrLt eps m p (key x)) s) st m

/-- `SetInstance::op_get`, `src/instance.cpp:1486-1494,1514-1518`. -/
def setGet (cfg : Cfg) : List Str → M (List Addr) Str := arg0 do
  let s ← value
  let l ← derefAll s
  pure (setRepr cfg.prec l)

/-- `SetInstance::op_isEmpty`, `src/instance.cpp:1520-1524`. -/
def setIsEmpty : List Str → M (List Addr) Str := arg0 do
  let s ← value
  pure (boolStr s.isEmpty)

/-- `SetInstance::op_contains`, `src/instance.cpp:1526-1531`. -/
def setContains (cfg : Cfg) (et : Str) : List Str → M (List Addr) Str := arg1 fun a => shared et a fun p => do
  let s ← value
  let r ← find cfg.eps id p s
  pure (boolStr r.2.1.isSome)

/-- `SetInstance::op_add`, `src/instance.cpp:1539-1545`: the pointer is copied into the set unless an equivalent element
is there. -/
def setAdd (cfg : Cfg) (et : Str) : List Str → M (List Addr) Str := arg1 fun a => shared et a fun p => do
  let s ← value
  let r ← find cfg.eps id p s
  match r.2.1 with
  | some _ => pure b!"null"
  | none => do
    copy p
    assign (r.1 ++ p :: r.2.2)
    pure b!"null"

/-- `SetInstance::op_remove`, `src/instance.cpp:1547-1553`. -/
def setRemove (cfg : Cfg) (et : Str) : List Str → M (List Addr) Str := arg1 fun a => shared et a fun p => do
  let s ← value
  let r ← find cfg.eps id p s
  match r.2.1 with
  | some q => do
    assign (r.1 ++ r.2.2)
    dropAll [q]
    pure b!"null"
  | none => pure b!"null"

/-- `SetInstance::receive`, `src/instance.cpp:1496-1512`. -/
def setTable (cfg : Cfg) (et : Str) : Table (List Addr) := [
  (b!"get", setGet cfg),
  (b!"isEmpty?", setIsEmpty),
  (b!"contains?", setContains cfg et),
  (b!"size", listSize),
  (b!"add:", setAdd cfg et),
  (b!"remove:", setRemove cfg et),
  (b!"clear", listClear)]

/-! ### DictionaryInstance -/

/-- `DictionaryInstance::op_get`, `src/instance.cpp:1583-1591,1617-1621`. -/
def dictText (cfg : Cfg) : List Str → M (List (Addr × Addr)) Str := arg0 do
  let s ← value
  let ks ← derefAll (s.map (·.1))
  let vs ← derefAll (s.map (·.2))
  pure (dictRepr cfg.prec (ks.zip vs))

/-- `DictionaryInstance::op_isEmpty`, `src/instance.cpp:1623-1627`. -/
def dictIsEmpty : List Str → M (List (Addr × Addr)) Str := arg0 do
  let s ← value
  pure (boolStr s.isEmpty)

/-- `DictionaryInstance::op_containsKey`, `src/instance.cpp:1629-1634`. -/
def dictContains (cfg : Cfg) (kt : Str) : List Str → M (List (Addr × Addr)) Str := arg1 fun a => shared kt a fun p => do
  let s ← value
  let r ← find cfg.eps (·.1) p s
  pure (boolStr r.2.1.isSome)

/-- `DictionaryInstance::op_size`, `src/instance.cpp:1636-1640`. -/
def dictSize : List Str → M (List (Addr × Addr)) Str := arg0 do
  let s ← value
  pure (intStr s.length)

/-- `DictionaryInstance::op_keys`, `src/instance.cpp:1642-1649`. -/
def dictKeys (cfg : Cfg) : List Str → M (List (Addr × Addr)) Str := arg0 do
  let s ← value
  temporary (s.map (·.1)) (vectorText cfg.prec (s.map (·.1)))

/-- `DictionaryInstance::op_values`, `src/instance.cpp:1651-1658`. -/
def dictValues (cfg : Cfg) : List Str → M (List (Addr × Addr)) Str := arg0 do
  let s ← value
  temporary (s.map (·.2)) (vectorText cfg.prec (s.map (·.2)))

/-- `DictionaryInstance::op_getValueForKey`, `src/instance.cpp:1660-1668`. -/
def dictGet (cfg : Cfg) (kt : Str) : List Str → M (List (Addr × Addr)) Str := arg1 fun a => shared kt a fun p => do
  let s ← value
  let r ← find cfg.eps (·.1) p s
  match r.2.1 with
  | some kv => text cfg.prec kv.2
  | none => pure b!"null"

/-- `DictionaryInstance::op_associateValue_withKey`, `src/instance.cpp:1670-1677`: an equivalent key stays and the pointer to
its value is overwritten, otherwise both pointers are copied into a new entry. -/
def dictAssociate (cfg : Cfg) (kt vt : Str) : List Str → M (List (Addr × Addr)) Str := arg2 fun a b =>
  shared vt a fun v => shared kt b fun k => do
    let s ← value
    let r ← find cfg.eps (·.1) k s
    match r.2.1 with
    | some kv => do
      copy v
      assign (r.1 ++ (kv.1, v) :: r.2.2)
      dropAll [kv.2]
      pure b!"null"
    | none => do
      copy k
      copy v
      assign (r.1 ++ (k, v) :: r.2.2)
      pure b!"null"

/-- `DictionaryInstance::op_removeKey`, `src/instance.cpp:1679-1685`. -/
def dictRemove (cfg : Cfg) (kt : Str) : List Str → M (List (Addr × Addr)) Str := arg1 fun a => shared kt a fun p => do
  let s ← value
  let r ← find cfg.eps (·.1) p s
  match r.2.1 with
  | some kv => do
    assign (r.1 ++ r.2.2)
    dropAll [kv.1, kv.2]
    pure b!"null"
  | none => pure b!"null"

/-- `DictionaryInstance::op_clear`, `src/instance.cpp:1687-1692`. -/
def dictClear : List Str → M (List (Addr × Addr)) Str := arg0 do
  let s ← value
  assign []
  dropAll (pairPtrs s)
  pure b!"null"

/-- `DictionaryInstance::receive`, `src/instance.cpp:1593-1615`. -/
def dictTable (cfg : Cfg) (kt vt : Str) : Table (List (Addr × Addr)) := [
  (b!"get", dictText cfg),
  (b!"isEmpty?", dictIsEmpty),
  (b!"containsKey?", dictContains cfg kt),
  (b!"size", dictSize),
  (b!"keys", dictKeys cfg),
  (b!"values", dictValues cfg),
  (b!"getValueForKey:", dictGet cfg kt),
  (b!"associateValue:withKey:", dictAssociate cfg kt vt),
  (b!"removeKey:", dictRemove cfg kt),
  (b!"clear", dictClear)]

/-! ### Instances and the context -/

/-- An object or an instance just constructed, as a cell: containers start empty (`src/instance.cpp:1055-1067,1469-1481,
1564-1578`). -/
def cellOf : Inst → Cell
  | .boolean v => .obj (.boolean v)
  | .character v => .obj (.character v)
  | .integer v => .obj (.integer v)
  | .float v => .obj (.float v)
  | .string v => .obj (.string v)
  | .vector et _ => .vector et []
  | .set et _ => .set et []
  | .dictionary kt vt _ => .dictionary kt vt []

/-- Write the instance at `p` back after an operator. -/
def store (p : Addr) (c : Cell) (m : Mem) : Option Mem := match m.cells p with
  | some (_, n) => some (m.put p (some (c, n)))
  | none => none

/-- The end of an operator of the container at `p`: its member is in place. -/
def finish {σ : Type} (p : Addr) (f : σ → Cell) : Out σ Str → Run Mem
  | .ok r s m => match store p (f s) m with
    | some m' => .ret m' r
    | none => .ub
  | .err e s m => match store p (f s) m with
    | some m' => .thr m' e
    | none => .ub
  | .ub => .ub

/-- The end of an operator of the object at `p`, which is mutated in place. -/
def finishObj (p : Addr) (m : Mem) : Run Inst → Run Mem
  | .ret i r => match store p (cellOf i) m with
    | some m' => .ret m' r
    | none => .ub
  | .thr i e => match store p (cellOf i) m with
    | some m' => .thr m' e
    | none => .ub
  | .ub => .ub

/-- `receive` of the object classes: they hold no pointers, and their operators are those of the value model. -/
def objReceive (cfg : Cfg) (o : Obj) (name : Str) (args : List Str) : Run Inst :=
  match o with
  | .boolean v => wrap .boolean (Knuckle.dispatch v (boolTable v) name args)
  | .character v => wrap .character (Knuckle.dispatch v (charTable cfg.eps v) name args)
  | .integer v => wrap .integer (Knuckle.dispatch v (intTable cfg.eps v) name args)
  | .float v => wrap .float (Knuckle.dispatch v (floatTable cfg v) name args)
  | .string v => wrap .string (Knuckle.dispatch v (stringTable cfg.eps v) name args)

/-- The virtual method `Instance::receive`, `src/instance.h:53`, of the instance at `p`. -/
def receive [PosSort] (cfg : Cfg) (p : Addr) (m : Mem) (name : Str) (args : List Str) : Run Mem :=
  match m.cells p with
  | some (.obj o, _) => finishObj p m (objReceive cfg o name args)
  | some (.vector et l, _) => finish p (.vector et) (dispatch (vectorTable cfg et) name args l m)
  | some (.set et l, _) => finish p (.set et) (dispatch (setTable cfg et) name args l m)
  | some (.dictionary kt vt l, _) => finish p (.dictionary kt vt) (dispatch (dictTable cfg kt vt) name args l m)
  | none => .ub

/-- The attributes of `Context`, `src/context.h:43-49`, with `_instances` mapping names to pointers, and the memory. -/
structure HCtx where
  cfg : Cfg
  vars : List (Str × Addr)
  mem : Mem
  fileOpen : Bool
  quiet : Bool
  fileLog : List (Str × Str)
  stdoutLog : List (Str × Str)

/-- `Context::Context`, `src/context.cpp:48-54`. -/
def HCtx.init (prec : Int) (eps : Fl) (fileOpen quiet : Bool) : HCtx := ⟨⟨prec, eps⟩, [], .empty, fileOpen, quiet, [], []⟩

/-- Release the local pointer `p` and go on. -/
def leaving (h : HCtx) (p : Addr) (r : HCtx → Run HCtx) : Run HCtx := match h.mem.release p with
  | some m => r { h with mem := m }
  | none => .ub

/-- `Context::execute_in_type`, `src/context.cpp:78-113`: the local pointer `instance` is released at the end; if the name is
free, a copy of it stays in the map.  (Of the instances made by the loop of lines 101-104 only the last is shown: each
assignment releases the one before.) -/
def executeInType (h : HCtx) (p : Parsed) : Run HCtx :=
  match makeInstance p.actor p.name p.args with
  | .err e => .thr h e
  | .ub => .ub
  | .ok none => .ub
  | .ok (some (n, i)) =>
    let q := (h.mem.new (cellOf i)).1
    let h' := { h with mem := (h.mem.new (cellOf i)).2 }
    match mapFind strLt n h.vars with
    | none => match h'.mem.copy q with
      | some m => leaving { h' with vars := mapInsert strLt n q h.vars, mem := m } q (.ret · b!"null")
      | none => .ub
    | some _ =>
      if startsWith p.name b!"createIfNotExists:" then leaving h' q (.ret · b!"null")
      else leaving h' q (.thr · .nameAlreadyUsed)

/-- `Context::op_listNamespaces`, `src/context.cpp:175-190`. -/
def opListNamespaces (h : HCtx) : List Str → Run HCtx :=
  op0 h (.ok (h, c!"[" :: (joinComma (allNamespaces h.vars) ++ [c!"]"])))

/-- `Context::op_listVariables`, `src/context.cpp:192-202`. -/
def opListVariables (h : HCtx) : List Str → Run HCtx :=
  op0 h (.ok (h, c!"[" :: (joinComma (h.vars.map (·.1)) ++ [c!"]"])))

/-- `Context::op_listVariablesOfNamespace`, `src/context.cpp:204-218`. -/
def opListVariablesOfNamespace (h : HCtx) : List Str → Run HCtx := op1 h fun a =>
  if !isNamespace a then .err .invalidArgument
  else .ok (h, c!"[" :: (listOfNamespaceLoop (a ++ b!"::") h.vars [] ++ [c!"]"]))

/-- Release the pointers of erased entries of the map. -/
def releaseAll (m : Mem) : List (Str × Addr) → Option Mem
  | [] => some m
  | v :: vs => match m.release v.2 with
    | some m' => releaseAll m' vs
    | none => none

/-- `Context::op_deleteVariable`, `src/context.cpp:220-231`: erasing the entry releases its pointer. -/
def opDeleteVariable (h : HCtx) : List Str → Run HCtx := op1 h fun a =>
  if !isVariable a then .err .invalidArgument
  else match eraseName a h.vars with
    | some vs => match releaseAll h.mem (h.vars.find? fun v => v.1 == a).toList with
      | some m => .ok ({ h with vars := vs, mem := m }, b!"null")
      | none => .ub
    | none => .err .unexistentVariable

/-- `Context::op_deleteVariablesOfNamespace`, `src/context.cpp:233-245`. -/
def opDeleteVariablesOfNamespace (h : HCtx) : List Str → Run HCtx := op1 h fun a =>
  if !isNamespace a then .err .invalidArgument
  else match releaseAll h.mem (h.vars.filter fun v => startsWith v.1 (a ++ b!"::")) with
    | some m => .ok ({ h with vars := h.vars.filter fun v => !startsWith v.1 (a ++ b!"::"), mem := m }, b!"null")
    | none => .ub

/-- `Context::op_setFloatPrecision`, `src/context.cpp:251-259`. -/
def opSetFloatPrecision (h : HCtx) : List Str → Run HCtx := op1 h fun a => do
  let p ← integerLit a
  if p ≤ 0 then .err .invalidArgument else .ok ({ h with cfg := { h.cfg with prec := p } }, b!"null")

/-- `Context::op_setFloatComparisonTolerance`, `src/context.cpp:265-273`. -/
def opSetFloatComparisonTolerance (h : HCtx) : List Str → Run HCtx := op1 h fun a => do
  let t ← floatLit a
  if t.lt (.fin false 0) then .err .invalidArgument else .ok ({ h with cfg := { h.cfg with eps := t } }, b!"null")

/-- `Context::execute_in_context`, `src/context.cpp:115-136`. -/
def contextTable (h : HCtx) : Knuckle.Table HCtx := [
  (b!"listNamespaces", opListNamespaces h),
  (b!"listVariables", opListVariables h),
  (b!"listVariablesOfNamespace:", opListVariablesOfNamespace h),
  (b!"deleteVariable:", opDeleteVariable h),
  (b!"deleteVariablesOfNamespace:", opDeleteVariablesOfNamespace h),
  (b!"getFloatPrecision", fun _ => .ret h (intStr h.cfg.prec)),
  (b!"setFloatPrecision:", opSetFloatPrecision h),
  (b!"getFloatComparisonTolerance", fun _ => .ret h (fmtFixed h.cfg.prec h.cfg.eps)),
  (b!"setFloatComparisonTolerance:", opSetFloatComparisonTolerance h)]

/-- `Context::execute_in_variable`, `src/context.cpp:138-143`. -/
def executeInVariable [PosSort] (h : HCtx) (p : Parsed) : Run HCtx :=
  match mapFind strLt p.actor h.vars with
  | none => .thr h .unexistentVariable
  | some q => match receive h.cfg q h.mem p.name p.args with
    | .ret m r => .ret { h with mem := m } r
    | .thr m e => .thr { h with mem := m } e
    | .ub => .ub

/-- The end of a request to a type, the context or a variable: the session is as before. -/
def keep {σ : Type} (s : Option Session) : Run σ → Run (σ × Option Session)
  | .ret c' r => .ret (c', s) r
  | .thr c' e => .thr (c', s) e
  | .ub => .ub

/-- The `if` chain of `Context::execute`, `src/context.cpp:150-157`. -/
def executeParsed [PosSort] (pwd : Str) (h : HCtx) (s : Option Session) (p : Parsed) :
    Run (HCtx × Option Session) :=
  if isType p.actor then keep s (executeInType h p)
  else if isContext p.actor then keep s (Knuckle.dispatch h (contextTable h) p.name p.args)
  else if isVariable p.actor then keep s (executeInVariable h p)
  else if isConnection p.actor then
    match s with
    | none => .ub
    | some s => match s.receive pwd p.name p.args with
      | .ret s' r => .ret (h, some s') r
      | .thr s' e => .thr (h, some s') e
      | .ub => .ub
  else .ret (h, s) []

/-- The log record, `src/context.cpp:165-171`. -/
def HCtx.record (h : HCtx) (input output : Str) : HCtx :=
  if h.fileOpen then { h with fileLog := h.fileLog ++ [(trim input, output)] }
  else if !h.quiet then { h with stdoutLog := h.stdoutLog ++ [(trim input, output)] }
  else h

/-- `Context::execute`, `src/context.cpp:145-173`. -/
def execute [PosSort] (pwd : Str) (h : HCtx) (s : Option Session) (input : Str) :
    Outcome (HCtx × Option Session × Str) :=
  match parse input with
  | .ub => .ub
  | .err e => .done (h.record input e.text, s, e.text)
  | .ok p => match executeParsed pwd h s p with
    | .ub => .ub
    | .ret (h', s') r => .done (h'.record input r, s', r)
    | .thr (h', s') e => .done (h'.record input e.text, s', e.text)

end Knuckle.Heap
