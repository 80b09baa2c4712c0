/-
Model of `src/instance.cpp`, function by function.

* An object that is mutated through `this` becomes a value; an operator `op_x` becomes a function from the old value and
  the arguments to a result carrying the new value and the reply.
* `arguments[0]` etc. are only read after the size check, so an operator is a `match` on the argument list whose last
  case is the size check failing.
* Container sizes are below 2^31, so the casts `int(_value.size())` are exact.
* `std::vector<std::shared_ptr<Instance>>` is the list of the element values.  `Verif.Model.Heap` has the pointers; that the
  two cannot be told apart is proved (C81).
* `std::set`/`std::map` are the list of their elements in iteration order.  Their behaviour (and that of `std::sort`) is
  defined by the C++ standard only if the comparator is a strict weak order; this precondition is the explicit guard
  `orderOk`/`swoOn` below, and its failure is undefined behaviour.
-/
import Verif.Model.Float
import Verif.Model.Grammar

namespace Knuckle

/-- An object (non-container) instance: `BooleanInstance`, `CharacterInstance`, `IntegerInstance`, `FloatInstance`,
`StringInstance`, `src/instance.h:86-259`, as far as its `_value`. -/
inductive Obj
  | boolean (v : Bool)
  | character (v : Byte)
  | integer (v : Int)
  | float (v : Fl)
  | string (v : Str)
deriving DecidableEq, Repr

/-- The `_type` given to the base class, `src/instance.cpp:160,232,377,554,715`. -/
def Obj.type : Obj → Str
  | .boolean _ => b!"Boolean"
  | .character _ => b!"Character"
  | .integer _ => b!"Integer"
  | .float _ => b!"Float"
  | .string _ => b!"String"

/-- The settings of the context the instances read: `Context::get_float_precision` and
`get_float_comparison_tolerance`, `src/context.cpp:62-72`. -/
structure Cfg where
  prec : Int
  eps : Fl
deriving DecidableEq, Repr

/-- "true"/"false". -/
def boolStr (b : Bool) : Str := if b then b!"true" else b!"false"

/-! ### Comparators -/

/-- Value of a plain `char` as an `int`: signed on x86-64. -/
def schar (c : Byte) : Int := if c < 128 then (c.toNat : Int) else (c.toNat : Int) - 256

/-- `operator<` of `std::string`: bytewise as unsigned, a proper prefix is smaller. -/
def strLt : Str → Str → Bool
  | _, [] => false
  | [], _ :: _ => true
  | x :: xs, y :: ys => if x < y then true else if y < x then false else strLt xs ys

/-- `InstanceIsLessThanComparator`, `src/instance.cpp:92-115`. -/
def lessThan (eps : Fl) : Obj → Obj → Res Bool
  | .boolean a, .boolean b => .ok (!a && b)
  | .character a, .character b => .ok (decide (schar a < schar b))
  | .integer a, .integer b => .ok (decide (a < b))
  | .integer a, .float b => .ok (((ofInt32 a).sub f32 b).lt eps.neg)
  | .float a, .float b => .ok ((a.sub f32 b).lt eps.neg)
  | .float a, .integer b => .ok ((a.sub f32 (ofInt32 b)).lt eps.neg)
  | .string a, .string b => .ok (strLt a b)
  | _, _ => .err .invalidComparison

/-- `InstanceIsGreaterThanComparator`, `src/instance.cpp:126-149`. -/
def greaterThan (eps : Fl) : Obj → Obj → Res Bool
  | .boolean a, .boolean b => .ok (a && !b)
  | .character a, .character b => .ok (decide (schar a > schar b))
  | .integer a, .integer b => .ok (decide (a > b))
  | .integer a, .float b => .ok (eps.lt ((ofInt32 a).sub f32 b))
  | .float a, .float b => .ok (eps.lt (a.sub f32 b))
  | .float a, .integer b => .ok (eps.lt (a.sub f32 (ofInt32 b)))
  | .string a, .string b => .ok (strLt b a)
  | _, _ => .err .invalidComparison

/-- `InstanceIsEqualToComparator`, `src/instance.cpp:85-88` (with the short circuit of `&&`). -/
def equalTo (eps : Fl) (a b : Obj) : Res Bool := do
  if ← lessThan eps a b then .ok false
  else if ← greaterThan eps a b then .ok false
  else .ok true

/-- `InstanceIsLessThanOrEqualToComparator`, `src/instance.cpp:119-122`. -/
def lessThanOrEqualTo (eps : Fl) (a b : Obj) : Res Bool := do
  if ← lessThan eps a b then .ok true else equalTo eps a b

/-- `InstanceIsGreaterThanOrEqualToComparator`, `src/instance.cpp:153-156`. -/
def greaterThanOrEqualTo (eps : Fl) (a b : Obj) : Res Bool := do
  if ← greaterThan eps a b then .ok true else equalTo eps a b

/-! ### Numeric arguments -/

/-- The ternary `is_integer_value(s) ? atoi(s) : atof(s)`, whose type is `double` in both branches
(e.g. `src/instance.cpp:384`). -/
def numArg (s : Str) : Res Fl :=
  if isIntegerValue s then do .ok (ofInt64 (← atoi s)) else .ok (atof s)

/-- `IntegerInstance(value).value()`, `src/instance.cpp:381-385`. -/
def integerLit (s : Str) : Res Int :=
  if !isIntegerValue s && !isFloatValue s then .err .invalidArgument
  else do (← numArg s).toInt

/-- `FloatInstance(value).value()`, `src/instance.cpp:558-562`. -/
def floatLit (s : Str) : Res Fl := if !isFloatValue s then .err .invalidArgument else .ok (atof s).toF32

/-- `StringInstance(value).value()`, `src/instance.cpp:715-719`. -/
def stringLit (s : Str) : Res Str :=
  if !isStringValue s then .err .invalidArgument else .ok (unescape c!"\"" (substr s 1 (s.length - 2)))

/-- `CharacterInstance(value).value()`, `src/instance.cpp:232-236`. -/
def characterLit (s : Str) : Res Byte := if !isCharacterValue s then .err .invalidArgument else .ok (s.getD 1 0)

/-- `BooleanInstance(value).value()`, `src/instance.cpp:160-164`. -/
def booleanLit (s : Str) : Res Bool := if !isBooleanValue s then .err .invalidArgument else .ok (s == b!"true")

/-- `get_shared_instance`, `src/instance.cpp:42-55`.  For any other type text the C++ returns a null pointer; every
caller dereferences it sooner or later, so that is undefined behaviour (proved unreachable). -/
def getSharedInstance (type value : Str) : Res Obj :=
  if type == b!"Boolean" then do .ok (.boolean (← booleanLit value))
  else if type == b!"Character" then do .ok (.character (← characterLit value))
  else if type == b!"Integer" then do .ok (.integer (← integerLit value))
  else if type == b!"Float" then do .ok (.float (← floatLit value))
  else if type == b!"String" then do .ok (.string (← stringLit value))
  else .ub

/-! ### Representation -/

/-- `"\"" + escape(v, '"') + "\""`: `StringInstance::representation`, `src/instance.cpp:750-752`, and the replies of
`op_first`, `op_last`, `op_substringFromIndex*`. -/
def quoted (v : Str) : Str := c!"\"" :: (escape c!"\"" v ++ [c!"\""])

/-- `"'" + std::string(1, c) + "'"`: `CharacterInstance::representation`, `src/instance.cpp:259-261`. -/
def charStr (c : Byte) : Str := [c!"'", c, c!"'"]

/-- `representation()` of the object classes, `src/instance.cpp:187-189,259-261,409-411,585-589,750-752`. -/
def Obj.repr (prec : Int) : Obj → Str
  | .boolean v => boolStr v
  | .character v => charStr v
  | .integer v => intStr v
  | .float v => fmtFixed prec v
  | .string v => quoted v

/-- Texts separated by commas (the loops of `src/instance.cpp:57-65,1486-1494,1583-1591`, `src/context.cpp:183-188,
195-200`). -/
def joinComma : List Str → Str
  | [] => []
  | [x] => x
  | x :: y :: ys => x ++ c!"," :: joinComma (y :: ys)

/-- `vector_representation`, `src/instance.cpp:57-65`. -/
def vectorRepr (prec : Int) (l : List Obj) : Str := c!"[" :: (joinComma (l.map (Obj.repr prec)) ++ [c!"]"])

/-- `SetInstance::representation`, `src/instance.cpp:1486-1494`. -/
def setRepr (prec : Int) (l : List Obj) : Str := c!"{" :: (joinComma (l.map (Obj.repr prec)) ++ [c!"}"])

/-- `DictionaryInstance::representation`, `src/instance.cpp:1583-1591`. -/
def dictRepr (prec : Int) (l : List (Obj × Obj)) : Str :=
  c!"(" :: (joinComma (l.map fun kv => c!"(" :: (kv.1.repr prec ++ c!"," :: (kv.2.repr prec ++ [c!")"]))) ++ [c!")"])

/-! ### Dispatch -/

/-- The end of an operator on an object with value type `σ`: it returns a reply or throws, and in both cases leaves the
object with some value; or its behaviour is undefined. -/
inductive Run (σ : Type) where
  | ret (s : σ) (reply : Str)
  | thr (s : σ) (e : Exc)
  | ub
deriving DecidableEq, Repr

/-- An operator whose only assignment to the object is its last action: when it throws the object still has its old
value.  (All operators are of this shape except `removeAll:`, `replaceAll:with:` and `sort`, modelled separately.) -/
def Res.run {σ : Type} (old : σ) : Res (σ × Str) → Run σ
  | .ok (s, r) => .ret s r
  | .err e => .thr old e
  | .ub => .ub

/-- A chain `if (message_name == n1) return op1(arguments); ... throw EXC_INVALID_MESSAGE;` as a table. -/
abbrev Table (σ : Type) := List (Str × (List Str → Run σ))

/-- First matching row of the table, else `EXC_INVALID_MESSAGE`. -/
def dispatch {σ : Type} (old : σ) : Table σ → Str → List Str → Run σ
  | [], _, _ => .thr old .invalidMessage
  | (n, op) :: t, name, args => if name == n then op args else dispatch old t name args

/-- An operator without arguments. -/
def op0 {σ : Type} (old : σ) (f : Res (σ × Str)) : List Str → Run σ
  | [] => (f).run old
  | _ => .thr old .wrongNumberOfArguments

/-- An operator with one argument. -/
def op1 {σ : Type} (old : σ) (f : Str → Res (σ × Str)) : List Str → Run σ
  | [a] => (f a).run old
  | _ => .thr old .wrongNumberOfArguments

/-- An operator with two arguments. -/
def op2 {σ : Type} (old : σ) (f : Str → Str → Res (σ × Str)) : List Str → Run σ
  | [a, b] => (f a b).run old
  | _ => .thr old .wrongNumberOfArguments

/-- An operator with three arguments. -/
def op3 {σ : Type} (old : σ) (f : Str → Str → Str → Res (σ × Str)) : List Str → Run σ
  | [a, b, c] => (f a b c).run old
  | _ => .thr old .wrongNumberOfArguments

/-! ### BooleanInstance -/

/-- `BooleanInstance::receive` and its operators, `src/instance.cpp:191-228`. -/
def boolTable (v : Bool) : Table Bool := [
  (b!"get", op0 v (.ok (v, boolStr v))),
  (b!"set:", op1 v fun a => do .ok (← booleanLit a, b!"null")),
  (b!"isTrue?", op0 v (.ok (v, boolStr (v == true)))),
  (b!"isFalse?", op0 v (.ok (v, boolStr (v == false))))]

/-! ### CharacterInstance -/

/-- The comparison operators of a character, `src/instance.cpp:328-373`. -/
def charCmp (cmp : Obj → Obj → Res Bool) (v : Byte) : List Str → Run Byte :=
  op1 v fun a => do
    let b ← characterLit a
    .ok (v, boolStr (← cmp (.character v) (.character b)))

/-- `CharacterInstance::receive` and its operators, `src/instance.cpp:263-373`. -/
def charTable (eps : Fl) (v : Byte) : Table Byte := [
  (b!"get", op0 v (.ok (v, charStr v))),
  (b!"set:", op1 v fun a => do .ok (← characterLit a, b!"null")),
  (b!"isAlphabetic?", op0 v (.ok (v, boolStr (isAlpha v)))),
  (b!"isNumeric?", op0 v (.ok (v, boolStr (isNumeric v)))),
  (b!"isAlphanumeric?", op0 v (.ok (v, boolStr (isAlphanumeric v)))),
  (b!"isSpace?", op0 v (.ok (v, boolStr (isSpace v)))),
  (b!"isEqualTo?", charCmp (equalTo eps) v),
  (b!"isLessThan?", charCmp (lessThan eps) v),
  (b!"isLessThanOrEqualTo?", charCmp (lessThanOrEqualTo eps) v),
  (b!"isGreaterThan?", charCmp (greaterThan eps) v),
  (b!"isGreaterThanOrEqualTo?", charCmp (greaterThanOrEqualTo eps) v)]

/-! ### IntegerInstance -/

/-- The comparison operators of an integer, `src/instance.cpp:454-514`: the argument is an Integer if it is an integer
literal, else a Float. -/
def intCmp (cmp : Obj → Obj → Res Bool) (v : Int) : List Str → Run Int :=
  op1 v fun a =>
    if !isIntegerValue a && !isFloatValue a then .err .invalidArgument
    else if isIntegerValue a then do
      let b ← integerLit a
      .ok (v, boolStr (← cmp (.integer v) (.integer b)))
    else do
      let b ← floatLit a
      .ok (v, boolStr (← cmp (.integer v) (.float b)))

/-- The arithmetic operators of an integer, `src/instance.cpp:516-550`: `_value op= (double)`; the right-hand side is a
`double` in both branches, so the operation is done in `double` and the result converted back to `int`. -/
def intArith (f : Fl → Fl → Fl) (v : Int) : List Str → Run Int :=
  op1 v fun a =>
    if !isIntegerValue a && !isFloatValue a then .err .invalidArgument
    else do
      let d ← numArg a
      .ok (← (f (ofInt64 v) d).toInt, b!"null")

/-- `IntegerInstance::receive` and its operators, `src/instance.cpp:413-550`. -/
def intTable (eps : Fl) (v : Int) : Table Int := [
  (b!"get", op0 v (.ok (v, intStr v))),
  (b!"set:", op1 v fun a => do .ok (← integerLit a, b!"null")),
  (b!"isEqualTo?", intCmp (equalTo eps) v),
  (b!"isLessThan?", intCmp (lessThan eps) v),
  (b!"isLessThanOrEqualTo?", intCmp (lessThanOrEqualTo eps) v),
  (b!"isGreaterThan?", intCmp (greaterThan eps) v),
  (b!"isGreaterThanOrEqualTo?", intCmp (greaterThanOrEqualTo eps) v),
  (b!"add:", intArith (Fl.add f64) v),
  (b!"subtract:", intArith (Fl.sub f64) v),
  (b!"multiplyBy:", intArith (Fl.mul f64) v),
  (b!"divideBy:", intArith (Fl.div f64) v)]

/-! ### FloatInstance -/

/-- The comparison operators of a float, `src/instance.cpp:632-675`. -/
def floatCmp (cmp : Obj → Obj → Res Bool) (v : Fl) : List Str → Run Fl :=
  op1 v fun a => do
    let b ← floatLit a
    .ok (v, boolStr (← cmp (.float v) (.float b)))

/-- The arithmetic operators of a float, `src/instance.cpp:677-711`: computed in `double`, converted to `float`. -/
def floatArith (f : Fl → Fl → Fl) (v : Fl) : List Str → Run Fl :=
  op1 v fun a => if !isFloatValue a then .err .invalidArgument else .ok ((f v (atof a)).toF32, b!"null")

/-- `FloatInstance::receive` and its operators, `src/instance.cpp:591-711`. -/
def floatTable (cfg : Cfg) (v : Fl) : Table Fl := [
  (b!"get", op0 v (.ok (v, fmtFixed cfg.prec v))),
  (b!"set:", op1 v fun a => do .ok (← floatLit a, b!"null")),
  (b!"isEqualTo?", floatCmp (equalTo cfg.eps) v),
  (b!"isLessThan?", floatCmp (lessThan cfg.eps) v),
  (b!"isLessThanOrEqualTo?", floatCmp (lessThanOrEqualTo cfg.eps) v),
  (b!"isGreaterThan?", floatCmp (greaterThan cfg.eps) v),
  (b!"isGreaterThanOrEqualTo?", floatCmp (greaterThanOrEqualTo cfg.eps) v),
  (b!"add:", floatArith (Fl.add f64) v),
  (b!"subtract:", floatArith (Fl.sub f64) v),
  (b!"multiplyBy:", floatArith (Fl.mul f64) v),
  (b!"divideBy:", floatArith (Fl.div f64) v)]

/-! ### StringInstance -/

/-- The comparison operators of a string, `src/instance.cpp:847-891`. -/
def stringCmp (cmp : Obj → Obj → Res Bool) (v : Str) : List Str → Run Str :=
  op1 v fun a => do
    let b ← stringLit a
    .ok (v, boolStr (← cmp (.string v) (.string b)))

/-- `StringInstance::op_atIndex`, `src/instance.cpp:899-906`. -/
def strAtIndex (v : Str) : List Str → Run Str := op1 v fun a => do
  let i ← integerLit a
  if i < 0 || i ≥ (v.length : Int) then .err .invalidArgument
  else .ok (v, charStr (v.getD i.toNat 0))

/-- `StringInstance::op_first`, `src/instance.cpp:908-916`. -/
def strFirst (v : Str) : List Str → Run Str := op1 v fun a => do
  let n ← integerLit a
  if n < 0 then .err .invalidArgument
  else .ok (v, quoted (← substrR v 0 (min n (v.length : Int)).toNat))

/-- `StringInstance::op_last`, `src/instance.cpp:918-926`. -/
def strLast (v : Str) : List Str → Run Str := op1 v fun a => do
  let n ← integerLit a
  if n < 0 then .err .invalidArgument
  else .ok (v, quoted (← substrR v ((v.length : Int) - min n (v.length : Int)).toNat v.length))

/-- `StringInstance::op_substringFromIndex`, `src/instance.cpp:928-935`. -/
def strSubstringFrom (v : Str) : List Str → Run Str := op1 v fun a => do
  let i ← integerLit a
  if i < 0 || i > (v.length : Int) then .err .invalidArgument
  else .ok (v, quoted (← substrR v i.toNat v.length))

/-- The three range checks shared by the `from/to` operators, e.g. `src/instance.cpp:942-947`. -/
def checkRange (len : Nat) (i j : Int) : Res Unit :=
  if i < 0 || i > (len : Int) then .err .invalidArgument
  else if j < 0 || j > (len : Int) then .err .invalidArgument
  else if j - i < 0 then .err .invalidArgument
  else .ok ()

/-- `StringInstance::op_substringFromIndex_toIndex`, `src/instance.cpp:937-949`. -/
def strSubstringFromTo (v : Str) : List Str → Run Str := op2 v fun a b => do
  let i ← integerLit a
  let j ← integerLit b
  checkRange v.length i j
  .ok (v, quoted (← substrR v i.toNat (j - i).toNat))

/-- `StringInstance::op_popBack`, `src/instance.cpp:969-977`. -/
def strPopBack (v : Str) : List Str → Run Str := op0 v <|
  if v.length == 0 then .ok (v, b!"null")
  else do .ok (← substrR v 0 (v.length - 1), charStr (v.getD (v.length - 1) 0))

/-- `StringInstance::op_popFront`, `src/instance.cpp:979-987`. -/
def strPopFront (v : Str) : List Str → Run Str := op0 v <|
  if v.length == 0 then .ok (v, b!"null")
  else do .ok (← substrR v 1 (v.length - 1), charStr (v.getD 0 0))

/-- `StringInstance::op_popAtIndex`, `src/instance.cpp:989-998`. -/
def strPopAtIndex (v : Str) : List Str → Run Str := op1 v fun a => do
  let i ← integerLit a
  if i < 0 || i ≥ (v.length : Int) then .err .invalidArgument
  else .ok (v.take i.toNat ++ v.drop (i.toNat + 1), charStr (v.getD i.toNat 0))

/-- `StringInstance::op_insert_beforeIndex`, `src/instance.cpp:1009-1019`; `std::string::insert` throws
`std::out_of_range` beyond the end. -/
def strInsert (v : Str) : List Str → Run Str := op2 v fun a b =>
  if !isStringValue a then .err .invalidArgument
  else do
    let i ← integerLit b
    if i < 0 || i > (v.length : Int) then .err .invalidArgument
    else do
      let w ← stringLit a
      if v.length < i.toNat then .err .unknown else .ok (v.take i.toNat ++ (w ++ v.drop i.toNat), b!"null")

/-- `StringInstance::op_eraseFromIndex`, `src/instance.cpp:1021-1029`; `std::string::erase` throws
`std::out_of_range` beyond the end. -/
def strErase (v : Str) : List Str → Run Str := op1 v fun a => do
  let i ← integerLit a
  if i < 0 || i > (v.length : Int) then .err .invalidArgument
  else if v.length < i.toNat then .err .unknown
  else .ok (v.take i.toNat, b!"null")

/-- `StringInstance::op_eraseFromIndex_toIndex`, `src/instance.cpp:1031-1044`. -/
def strEraseTo (v : Str) : List Str → Run Str := op2 v fun a b => do
  let i ← integerLit a
  let j ← integerLit b
  checkRange v.length i j
  if v.length < i.toNat then .err .unknown
  else .ok (v.take i.toNat ++ v.drop (i.toNat + (j - i).toNat), b!"null")

/-- `StringInstance::receive` and its operators, `src/instance.cpp:754-1051`. -/
def stringTable (eps : Fl) (v : Str) : Table Str := [
  (b!"get", op0 v (.ok (v, quoted v))),
  (b!"set:", op1 v fun a => do .ok (← stringLit a, b!"null")),
  (b!"isEmpty?", op0 v (.ok (v, boolStr (v.length == 0)))),
  (b!"startsWith?", op1 v fun a => do .ok (v, boolStr (startsWith v (← stringLit a)))),
  (b!"endsWith?", op1 v fun a => do .ok (v, boolStr (endsWith v (← stringLit a)))),
  (b!"isLexicographicallyEqualTo?", stringCmp (equalTo eps) v),
  (b!"isLexicographicallyLessThan?", stringCmp (lessThan eps) v),
  (b!"isLexicographicallyLessThanOrEqualTo?", stringCmp (lessThanOrEqualTo eps) v),
  (b!"isLexicographicallyGreaterThan?", stringCmp (greaterThan eps) v),
  (b!"isLexicographicallyGreaterThanOrEqualTo?", stringCmp (greaterThanOrEqualTo eps) v),
  (b!"length", op0 v (.ok (v, intStr v.length))),
  (b!"atIndex:", strAtIndex v),
  (b!"first:", strFirst v),
  (b!"last:", strLast v),
  (b!"substringFromIndex:", strSubstringFrom v),
  (b!"substringFromIndex:toIndex:", strSubstringFromTo v),
  (b!"pushBack:", op1 v fun a => do .ok (v ++ [← characterLit a], b!"null")),
  (b!"pushFront:", op1 v fun a => do .ok ([← characterLit a] ++ v, b!"null")),
  (b!"popBack", strPopBack v),
  (b!"popFront", strPopFront v),
  (b!"popAtIndex:", strPopAtIndex v),
  (b!"concatenate:", op1 v fun a => do .ok (v ++ (← stringLit a), b!"null")),
  (b!"insert:beforeIndex:", strInsert v),
  (b!"eraseFromIndex:", strErase v),
  (b!"eraseFromIndex:toIndex:", strEraseTo v),
  (b!"clear", op0 v (.ok ([], b!"null")))]

/-! ### Ordered containers and sorting -/

/-- `std::sort`: any function whose result, when the comparator is a strict weak order on the elements, is a permutation
of them in non-descending order.  The model is parametric in it; `Verif.Proofs.Sort` gives an instance. -/
class StdSort where
  sort : (Obj → Obj → Bool) → List Obj → List Obj
  perm : ∀ lt l, (∀ a ∈ l, lt a a = false) → (∀ a ∈ l, ∀ b ∈ l, ∀ c ∈ l, lt a b = true → lt b c = true → lt a c = true) →
    (∀ a ∈ l, ∀ b ∈ l, ∀ c ∈ l, lt a b = false → lt b a = false → lt b c = false → lt c b = false →
      lt a c = false ∧ lt c a = false) →
    (sort lt l).Perm l
  sorted : ∀ lt l, (∀ a ∈ l, lt a a = false) → (∀ a ∈ l, ∀ b ∈ l, ∀ c ∈ l, lt a b = true → lt b c = true → lt a c = true) →
    (∀ a ∈ l, ∀ b ∈ l, ∀ c ∈ l, lt a b = false → lt b a = false → lt b c = false → lt c b = false →
      lt a c = false ∧ lt c a = false) →
    (sort lt l).Pairwise fun a b => lt b a = false

/-- The comparator as a Boolean relation (an exception counts as "no"; see `comparable`). -/
def ltB (eps : Fl) (a b : Obj) : Bool := match lessThan eps a b with
  | .ok true => true
  | _ => false

/-- No comparison between two of the elements throws. -/
def comparable (eps : Fl) (l : List Obj) : Bool :=
  l.all fun a => l.all fun b => match lessThan eps a b with
    | .ok _ => true
    | _ => false

/-- The comparator is a strict weak order on these elements: irreflexive, transitive, with transitive incomparability. -/
def swoOn (lt : Obj → Obj → Bool) (l : List Obj) : Bool :=
  l.all (fun a => !lt a a) &&
  l.all (fun a => l.all fun b => l.all fun c => !(lt a b && lt b c) || lt a c) &&
  l.all (fun a => l.all fun b => l.all fun c =>
    (lt a b || lt b a || lt b c || lt c b) || (!lt a c && !lt c a))

/-- Strictly ascending, every element below every later one. -/
def ascending (lt : Obj → Obj → Bool) : List Obj → Bool
  | [] => true
  | x :: xs => xs.all (fun y => lt x y) && ascending lt xs

/-- The precondition of a search for `k` in an ordered container holding `l`: comparisons do not throw (simplification:
the C++ throws only if it reaches such a comparison; proved unreachable), and otherwise the comparator is a strict weak
order on the elements and the key, and the container is ordered by it. -/
def orderGuard (eps : Fl) (l : List Obj) (k : Obj) : Res Unit :=
  if !comparable eps (k :: l) then .err .invalidComparison
  else if swoOn (ltB eps) (k :: l) && ascending (ltB eps) l then .ok ()
  else .ub

/-- `std::set::insert`: nothing happens if an equivalent element is present. -/
def setInsert {κ : Type} (lt : κ → κ → Bool) (k : κ) : List κ → List κ
  | [] => [k]
  | x :: xs => if lt x k then x :: setInsert lt k xs else if lt k x then k :: x :: xs else x :: xs

/-- `std::set::erase(key)`. -/
def setErase {κ : Type} (lt : κ → κ → Bool) (k : κ) : List κ → List κ
  | [] => []
  | x :: xs => if lt x k then x :: setErase lt k xs else if lt k x then x :: xs else xs

/-- `std::set::find(key) != end()`. -/
def setFind {κ : Type} (lt : κ → κ → Bool) (k : κ) : List κ → Bool
  | [] => false
  | x :: xs => if lt x k then setFind lt k xs else if lt k x then false else true

/-- `std::map::operator[](key) = value`: the stored key is kept if an equivalent one is present. -/
def mapInsert {κ α : Type} (lt : κ → κ → Bool) (k : κ) (v : α) : List (κ × α) → List (κ × α)
  | [] => [(k, v)]
  | x :: xs =>
    if lt x.1 k then x :: mapInsert lt k v xs else if lt k x.1 then (k, v) :: x :: xs else (x.1, v) :: xs

/-- `std::map::erase(key)`. -/
def mapErase {κ α : Type} (lt : κ → κ → Bool) (k : κ) : List (κ × α) → List (κ × α)
  | [] => []
  | x :: xs => if lt x.1 k then x :: mapErase lt k xs else if lt k x.1 then x :: xs else xs

/-- `std::map::find(key)`. -/
def mapFind {κ α : Type} (lt : κ → κ → Bool) (k : κ) : List (κ × α) → Option α
  | [] => none
  | x :: xs => if lt x.1 k then mapFind lt k xs else if lt k x.1 then none else some x.2

/-! ### VectorInstance -/

/-- Linear search from the element with index `i` on: the index of the first element equal to `o`
(the loops of `src/instance.cpp:1158-1160,1171-1173,1201-1203,1214-1216`). -/
def findFrom (eps : Fl) (o : Obj) : List Obj → Nat → Res (Option Nat)
  | [], _ => .ok none
  | x :: xs, i => do if ← equalTo eps x o then .ok (some i) else findFrom eps o xs (i + 1)

/-- The counting loop, `src/instance.cpp:1181-1184`. -/
def countLoop (eps : Fl) (o : Obj) : List Obj → Nat → Res Nat
  | [], n => .ok n
  | x :: xs, n => do if ← equalTo eps x o then countLoop eps o xs (n + 1) else countLoop eps o xs n

/-- The loop of `op_allIndexesOf`, `src/instance.cpp:1224-1230`. -/
def indexesLoop (eps : Fl) (o : Obj) : List Obj → Nat → Str → Res Str
  | [], _, acc => .ok acc
  | x :: xs, i, acc => do
    if ← equalTo eps x o then
      indexesLoop eps o xs (i + 1) ((if acc.length > 0 then acc ++ [c!","] else acc) ++ natStr i)
    else indexesLoop eps o xs (i + 1) acc

/-- Erase the first element equal to `o`, `src/instance.cpp:1371-1375,1386-1390`; `pre` has been passed already. -/
def removeFirstLoop (eps : Fl) (o : Obj) (pre : List Obj) : List Obj → Res (List Obj)
  | [] => .ok pre
  | x :: xs => do if ← equalTo eps x o then .ok (pre ++ xs) else removeFirstLoop eps o (pre ++ [x]) xs

/-- `src/instance.cpp:1398-1402`: on a match the element at `i` is erased and `i--; i++` revisits index `i`. -/
def removeAllLoop (eps : Fl) (o : Obj) (pre : List Obj) : List Obj → Run (List Obj)
  | [] => .ret pre b!"null"
  | x :: xs => match equalTo eps x o with
    | .ok true => removeAllLoop eps o pre xs
    | .ok false => removeAllLoop eps o (pre ++ [x]) xs
    | .err e => .thr (pre ++ x :: xs) e
    | .ub => .ub

/-- `src/instance.cpp:1411-1415,1427-1431`; the replacement is parsed again from its text, to the same value. -/
def replaceFirstLoop (eps : Fl) (et b : Str) (o : Obj) (pre : List Obj) : List Obj → Res (List Obj)
  | [] => .ok pre
  | x :: xs => do
    if ← equalTo eps x o then .ok (pre ++ (← getSharedInstance et b) :: xs)
    else replaceFirstLoop eps et b o (pre ++ [x]) xs

/-- `src/instance.cpp:1440-1442`. -/
def replaceAllLoop (eps : Fl) (et b : Str) (o : Obj) (pre : List Obj) : List Obj → Run (List Obj)
  | [] => .ret pre b!"null"
  | x :: xs => match equalTo eps x o with
    | .ok true => match getSharedInstance et b with
      | .ok n => replaceAllLoop eps et b o (pre ++ [n]) xs
      | .err e => .thr (pre ++ x :: xs) e
      | .ub => .ub
    | .ok false => replaceAllLoop eps et b o (pre ++ [x]) xs
    | .err e => .thr (pre ++ x :: xs) e
    | .ub => .ub

/-- The index check `index < 0 || index > size` of most operators. -/
def checkFrom (len : Nat) (i : Int) : Res Unit :=
  if i < 0 || i > (len : Int) then .err .invalidArgument else .ok ()

/-- The index check `index < 0 || index >= size` of `op_atIndex` and `op_popAtIndex`. -/
def checkAt (len : Nat) (i : Int) : Res Unit :=
  if i < 0 || i ≥ (len : Int) then .err .invalidArgument else .ok ()

/-- `VectorInstance::op_contains`, `src/instance.cpp:1154-1162`. -/
def vecContains (cfg : Cfg) (et : Str) (l : List Obj) : List Str → Run (List Obj) := op1 l fun a => do
  let o ← getSharedInstance et a
  .ok (l, boolStr (← findFrom cfg.eps o l 0).isSome)

/-- `VectorInstance::op_contains_fromIndex`, `src/instance.cpp:1164-1175`. -/
def vecContainsFrom (cfg : Cfg) (et : Str) (l : List Obj) : List Str → Run (List Obj) := op2 l fun a b => do
  let o ← getSharedInstance et a
  let i ← integerLit b
  checkFrom l.length i
  .ok (l, boolStr (← findFrom cfg.eps o (l.drop i.toNat) i.toNat).isSome)

/-- `VectorInstance::op_count`, `src/instance.cpp:1177-1186`. -/
def vecCount (cfg : Cfg) (et : Str) (l : List Obj) : List Str → Run (List Obj) := op1 l fun a => do
  let o ← getSharedInstance et a
  .ok (l, intStr (← countLoop cfg.eps o l 0))

/-- `VectorInstance::op_atIndex`, `src/instance.cpp:1188-1195`. -/
def vecAtIndex (cfg : Cfg) (l : List Obj) : List Str → Run (List Obj) := op1 l fun a => do
  let i ← integerLit a
  checkAt l.length i
  match l[i.toNat]? with
  | some o => .ok (l, o.repr cfg.prec)
  | none => .ub

/-- The reply of a search: the index or -1, `src/instance.cpp:1203-1204`. -/
def indexReply : Option Nat → Str
  | some i => intStr i
  | none => b!"-1"

/-- `VectorInstance::op_firstIndexOf`, `src/instance.cpp:1197-1205`. -/
def vecFirstIndexOf (cfg : Cfg) (et : Str) (l : List Obj) : List Str → Run (List Obj) := op1 l fun a => do
  let o ← getSharedInstance et a
  .ok (l, indexReply (← findFrom cfg.eps o l 0))

/-- `VectorInstance::op_firstIndexOf_fromIndex`, `src/instance.cpp:1207-1218`. -/
def vecFirstIndexOfFrom (cfg : Cfg) (et : Str) (l : List Obj) : List Str → Run (List Obj) := op2 l fun a b => do
  let o ← getSharedInstance et a
  let i ← integerLit b
  checkFrom l.length i
  .ok (l, indexReply (← findFrom cfg.eps o (l.drop i.toNat) i.toNat))

/-- `VectorInstance::op_allIndexesOf`, `src/instance.cpp:1220-1232`. -/
def vecAllIndexesOf (cfg : Cfg) (et : Str) (l : List Obj) : List Str → Run (List Obj) := op1 l fun a => do
  let o ← getSharedInstance et a
  .ok (l, c!"[" :: ((← indexesLoop cfg.eps o l 0 []) ++ [c!"]"]))

/-- `VectorInstance::op_first`, `src/instance.cpp:1240-1248`. -/
def vecFirst (cfg : Cfg) (l : List Obj) : List Str → Run (List Obj) := op1 l fun a => do
  let n ← integerLit a
  if n < 0 then .err .invalidArgument
  else .ok (l, vectorRepr cfg.prec (l.take (min n (l.length : Int)).toNat))

/-- `VectorInstance::op_last`, `src/instance.cpp:1250-1258`. -/
def vecLast (cfg : Cfg) (l : List Obj) : List Str → Run (List Obj) := op1 l fun a => do
  let n ← integerLit a
  if n < 0 then .err .invalidArgument
  else .ok (l, vectorRepr cfg.prec (l.drop (l.length - (min n (l.length : Int)).toNat)))

/-- `VectorInstance::op_sliceFromIndex`, `src/instance.cpp:1260-1267`. -/
def vecSlice (cfg : Cfg) (l : List Obj) : List Str → Run (List Obj) := op1 l fun a => do
  let i ← integerLit a
  checkFrom l.length i
  .ok (l, vectorRepr cfg.prec (l.drop i.toNat))

/-- `VectorInstance::op_sliceFromIndex_toIndex`, `src/instance.cpp:1269-1282`. -/
def vecSliceTo (cfg : Cfg) (l : List Obj) : List Str → Run (List Obj) := op2 l fun a b => do
  let i ← integerLit a
  let j ← integerLit b
  checkRange l.length i j
  .ok (l, vectorRepr cfg.prec ((l.take j.toNat).drop i.toNat))

/-- `VectorInstance::op_pushBack`, `src/instance.cpp:1284-1290`. -/
def vecPushBack (et : Str) (l : List Obj) : List Str → Run (List Obj) := op1 l fun a => do
  let o ← getSharedInstance et a
  .ok (l ++ [o], b!"null")

/-- `VectorInstance::op_pushFront`, `src/instance.cpp:1292-1298`. -/
def vecPushFront (et : Str) (l : List Obj) : List Str → Run (List Obj) := op1 l fun a => do
  let o ← getSharedInstance et a
  .ok (o :: l, b!"null")

/-- `VectorInstance::op_popBack`, `src/instance.cpp:1300-1308`. -/
def vecPopBack (cfg : Cfg) (l : List Obj) : List Str → Run (List Obj) := op0 l <|
  if l.length == 0 then .ok (l, b!"null")
  else match l[l.length - 1]? with
    | some o => .ok (l.take (l.length - 1), o.repr cfg.prec)
    | none => .ub

/-- `VectorInstance::op_popFront`, `src/instance.cpp:1310-1318`. -/
def vecPopFront (cfg : Cfg) (l : List Obj) : List Str → Run (List Obj) := op0 l <|
  if l.length == 0 then .ok (l, b!"null")
  else match l[0]? with
    | some o => .ok (l.drop 1, o.repr cfg.prec)
    | none => .ub

/-- `VectorInstance::op_popAtIndex`, `src/instance.cpp:1320-1329`. -/
def vecPopAtIndex (cfg : Cfg) (l : List Obj) : List Str → Run (List Obj) := op1 l fun a => do
  let i ← integerLit a
  checkAt l.length i
  match l[i.toNat]? with
  | some o => .ok (l.take i.toNat ++ l.drop (i.toNat + 1), o.repr cfg.prec)
  | none => .ub

/-- `VectorInstance::op_insert_beforeIndex`, `src/instance.cpp:1331-1340`. -/
def vecInsert (et : Str) (l : List Obj) : List Str → Run (List Obj) := op2 l fun a b => do
  let o ← getSharedInstance et a
  let i ← integerLit b
  checkFrom l.length i
  .ok (l.take i.toNat ++ o :: l.drop i.toNat, b!"null")

/-- `VectorInstance::op_eraseFromIndex`, `src/instance.cpp:1342-1350`. -/
def vecErase (l : List Obj) : List Str → Run (List Obj) := op1 l fun a => do
  let i ← integerLit a
  checkFrom l.length i
  .ok (l.take i.toNat, b!"null")

/-- `VectorInstance::op_eraseFromIndex_toIndex`, `src/instance.cpp:1352-1365`. -/
def vecEraseTo (l : List Obj) : List Str → Run (List Obj) := op2 l fun a b => do
  let i ← integerLit a
  let j ← integerLit b
  checkRange l.length i j
  .ok (l.take i.toNat ++ l.drop j.toNat, b!"null")

/-- `VectorInstance::op_removeFirst`, `src/instance.cpp:1367-1377`. -/
def vecRemoveFirst (cfg : Cfg) (et : Str) (l : List Obj) : List Str → Run (List Obj) := op1 l fun a => do
  let o ← getSharedInstance et a
  .ok (← removeFirstLoop cfg.eps o [] l, b!"null")

/-- `VectorInstance::op_removeFirst_fromIndex`, `src/instance.cpp:1379-1392`. -/
def vecRemoveFirstFrom (cfg : Cfg) (et : Str) (l : List Obj) : List Str → Run (List Obj) := op2 l fun a b => do
  let o ← getSharedInstance et a
  let i ← integerLit b
  checkFrom l.length i
  .ok (← removeFirstLoop cfg.eps o (l.take i.toNat) (l.drop i.toNat), b!"null")

/-- `VectorInstance::op_removeAll`, `src/instance.cpp:1394-1404`. -/
def vecRemoveAll (cfg : Cfg) (et : Str) (l : List Obj) : List Str → Run (List Obj) := fun
  | [a] => match getSharedInstance et a with
    | .ok o => removeAllLoop cfg.eps o [] l
    | .err e => .thr l e
    | .ub => .ub
  | _ => .thr l .wrongNumberOfArguments

/-- `VectorInstance::op_replaceFirst_with`, `src/instance.cpp:1406-1417`. -/
def vecReplaceFirst (cfg : Cfg) (et : Str) (l : List Obj) : List Str → Run (List Obj) := op2 l fun a b => do
  let o ← getSharedInstance et a
  let _ ← getSharedInstance et b
  .ok (← replaceFirstLoop cfg.eps et b o [] l, b!"null")

/-- `VectorInstance::op_replaceFirst_fromIndex_with`, `src/instance.cpp:1419-1433`. -/
def vecReplaceFirstFrom (cfg : Cfg) (et : Str) (l : List Obj) : List Str → Run (List Obj) := op3 l fun a b c => do
  let o ← getSharedInstance et a
  let _ ← getSharedInstance et c
  let i ← integerLit b
  checkFrom l.length i
  .ok (← replaceFirstLoop cfg.eps et c o (l.take i.toNat) (l.drop i.toNat), b!"null")

/-- `VectorInstance::op_replaceAll_with`, `src/instance.cpp:1435-1444`. -/
def vecReplaceAll (cfg : Cfg) (et : Str) (l : List Obj) : List Str → Run (List Obj) := fun
  | [a, b] => match (do let o ← getSharedInstance et a; let _ ← getSharedInstance et b; .ok o : Res Obj) with
    | .ok o => replaceAllLoop cfg.eps et b o [] l
    | .err e => .thr l e
    | .ub => .ub
  | _ => .thr l .wrongNumberOfArguments

/-- `VectorInstance::op_sort`, `src/instance.cpp:1446-1451`: undefined unless the comparator is a strict weak order on the
elements.  If the comparator throws, `std::sort` leaves the elements in an unspecified order; this is conservatively
counted as undefined behaviour too (proved unreachable: elements always are of one type). -/
def vecSort [StdSort] (cfg : Cfg) (l : List Obj) : List Str → Run (List Obj) := op0 l <|
  if !comparable cfg.eps l then .ub
  else if swoOn (ltB cfg.eps) l then .ok (StdSort.sort (ltB cfg.eps) l, b!"null")
  else .ub

/-- `VectorInstance::receive` and its operators, `src/instance.cpp:1076-1465`. -/
def vectorTable [StdSort] (cfg : Cfg) (et : Str) (l : List Obj) : Table (List Obj) := [
  (b!"get", op0 l (.ok (l, vectorRepr cfg.prec l))),
  (b!"isEmpty?", op0 l (.ok (l, boolStr (l.length == 0)))),
  (b!"contains?", vecContains cfg et l),
  (b!"contains?fromIndex:", vecContainsFrom cfg et l),
  (b!"count:", vecCount cfg et l),
  (b!"atIndex:", vecAtIndex cfg l),
  (b!"firstIndexOf:", vecFirstIndexOf cfg et l),
  (b!"firstIndexOf:fromIndex:", vecFirstIndexOfFrom cfg et l),
  (b!"allIndexesOf:", vecAllIndexesOf cfg et l),
  (b!"size", op0 l (.ok (l, intStr l.length))),
  (b!"first:", vecFirst cfg l),
  (b!"last:", vecLast cfg l),
  (b!"sliceFromIndex:", vecSlice cfg l),
  (b!"sliceFromIndex:toIndex:", vecSliceTo cfg l),
  (b!"pushBack:", vecPushBack et l),
  (b!"pushFront:", vecPushFront et l),
  (b!"popBack", vecPopBack cfg l),
  (b!"popFront", vecPopFront cfg l),
  (b!"popAtIndex:", vecPopAtIndex cfg l),
  (b!"insert:beforeIndex:", vecInsert et l),
  (b!"eraseFromIndex:", vecErase l),
  (b!"eraseFromIndex:toIndex:", vecEraseTo l),
  (b!"removeFirst:", vecRemoveFirst cfg et l),
  (b!"removeFirst:fromIndex:", vecRemoveFirstFrom cfg et l),
  (b!"removeAll:", vecRemoveAll cfg et l),
  (b!"replaceFirst:with:", vecReplaceFirst cfg et l),
  (b!"replaceFirst:fromIndex:with:", vecReplaceFirstFrom cfg et l),
  (b!"replaceAll:with:", vecReplaceAll cfg et l),
  (b!"sort", vecSort cfg l),
  (b!"reverse", op0 l (.ok (l.reverse, b!"null"))),
  (b!"clear", op0 l (.ok ([], b!"null")))]

/-! ### SetInstance -/

/-- `SetInstance::receive` and its operators, `src/instance.cpp:1496-1560`. -/
def setTable (cfg : Cfg) (et : Str) (l : List Obj) : Table (List Obj) := [
  (b!"get", op0 l (.ok (l, setRepr cfg.prec l))),
  (b!"isEmpty?", op0 l (.ok (l, boolStr l.isEmpty))),
  (b!"contains?", op1 l fun a => do
    let o ← getSharedInstance et a
    orderGuard cfg.eps l o
    .ok (l, boolStr (setFind (ltB cfg.eps) o l))),
  (b!"size", op0 l (.ok (l, intStr l.length))),
  (b!"add:", op1 l fun a => do
    let o ← getSharedInstance et a
    orderGuard cfg.eps l o
    .ok (setInsert (ltB cfg.eps) o l, b!"null")),
  (b!"remove:", op1 l fun a => do
    let o ← getSharedInstance et a
    orderGuard cfg.eps l o
    .ok (setErase (ltB cfg.eps) o l, b!"null")),
  (b!"clear", op0 l (.ok ([], b!"null")))]

/-! ### DictionaryInstance -/

/-- `DictionaryInstance::op_getValueForKey`, `src/instance.cpp:1660-1668`. -/
def dictGet (cfg : Cfg) (kt : Str) (l : List (Obj × Obj)) : List Str → Run (List (Obj × Obj)) := op1 l fun a => do
  let k ← getSharedInstance kt a
  orderGuard cfg.eps (l.map (·.1)) k
  match mapFind (ltB cfg.eps) k l with
  | some v => .ok (l, v.repr cfg.prec)
  | none => .ok (l, b!"null")

/-- `DictionaryInstance::op_associateValue_withKey`, `src/instance.cpp:1670-1677`. -/
def dictAssociate (cfg : Cfg) (kt vt : Str) (l : List (Obj × Obj)) : List Str → Run (List (Obj × Obj)) :=
  op2 l fun a b => do
    let v ← getSharedInstance vt a
    let k ← getSharedInstance kt b
    orderGuard cfg.eps (l.map (·.1)) k
    .ok (mapInsert (ltB cfg.eps) k v l, b!"null")

/-- `DictionaryInstance::receive` and its operators, `src/instance.cpp:1593-1692`. -/
def dictTable (cfg : Cfg) (kt vt : Str) (l : List (Obj × Obj)) : Table (List (Obj × Obj)) := [
  (b!"get", op0 l (.ok (l, dictRepr cfg.prec l))),
  (b!"isEmpty?", op0 l (.ok (l, boolStr l.isEmpty))),
  (b!"containsKey?", op1 l fun a => do
    let k ← getSharedInstance kt a
    orderGuard cfg.eps (l.map (·.1)) k
    .ok (l, boolStr (mapFind (ltB cfg.eps) k l).isSome)),
  (b!"size", op0 l (.ok (l, intStr l.length))),
  (b!"keys", op0 l (.ok (l, vectorRepr cfg.prec (l.map (·.1))))),
  (b!"values", op0 l (.ok (l, vectorRepr cfg.prec (l.map (·.2))))),
  (b!"getValueForKey:", dictGet cfg kt l),
  (b!"associateValue:withKey:", dictAssociate cfg kt vt l),
  (b!"removeKey:", op1 l fun a => do
    let k ← getSharedInstance kt a
    orderGuard cfg.eps (l.map (·.1)) k
    .ok (mapErase (ltB cfg.eps) k l, b!"null")),
  (b!"clear", op0 l (.ok ([], b!"null")))]

/-! ### Instances -/

/-- An instance as stored in the context: `src/instance.h:86-367`. -/
inductive Inst
  | boolean (v : Bool)
  | character (v : Byte)
  | integer (v : Int)
  | float (v : Fl)
  | string (v : Str)
  | vector (elementType : Str) (l : List Obj)
  | set (elementType : Str) (l : List Obj)
  | dictionary (keyType valueType : Str) (l : List (Obj × Obj))
deriving DecidableEq, Repr

/-- Apply a constructor to the value an operator leaves. -/
def wrap {σ : Type} (f : σ → Inst) : Run σ → Run Inst
  | .ret v s => .ret (f v) s
  | .thr v e => .thr (f v) e
  | .ub => .ub

/-- The virtual method `Instance::receive`, `src/instance.h:53`. -/
def receive [StdSort] (cfg : Cfg) (i : Inst) (name : Str) (args : List Str) : Run Inst :=
  match i with
  | .boolean v => wrap .boolean (dispatch v (boolTable v) name args)
  | .character v => wrap .character (dispatch v (charTable cfg.eps v) name args)
  | .integer v => wrap .integer (dispatch v (intTable cfg.eps v) name args)
  | .float v => wrap .float (dispatch v (floatTable cfg v) name args)
  | .string v => wrap .string (dispatch v (stringTable cfg.eps v) name args)
  | .vector et l => wrap (.vector et) (dispatch l (vectorTable cfg et l) name args)
  | .set et l => wrap (.set et) (dispatch l (setTable cfg et l) name args)
  | .dictionary kt vt l => wrap (.dictionary kt vt) (dispatch l (dictTable cfg kt vt l) name args)

/-- `createIfNotExists:withValue:` or `create:withValue:`. -/
def isCreateWithValue (name : Str) : Bool := name == b!"create:withValue:" || name == b!"createIfNotExists:withValue:"

/-- `createIfNotExists:` or `create:`. -/
def isCreate (name : Str) : Bool := name == b!"create:" || name == b!"createIfNotExists:"

/-- The constructors with a value, `src/instance.cpp:166-178,238-250,387-400,564-576` and `731-738`: the arguments are
checked together, then the value is read. -/
def constructWithValue (f : Str → Res Inst) (valid : Str → Bool) : List Str → Res (Str × Inst)
  | [a, b] => if !isVariable a || !valid b then .err .invalidArgument else do .ok (a, ← f b)
  | _ => .err .wrongNumberOfArguments

/-- The constructors without a value, `src/instance.cpp:723-730,1055-1067,1469-1481,1564-1578`. -/
def constructEmpty (i : Inst) : List Str → Res (Str × Inst)
  | [a] => if !isVariable a then .err .invalidArgument else .ok (a, i)
  | _ => .err .wrongNumberOfArguments

/-- `BooleanInstance(message_name, arguments)`, `src/instance.cpp:166-178`. -/
def newBoolean (name : Str) (args : List Str) : Res (Str × Inst) :=
  if isCreateWithValue name then
    constructWithValue (fun b => .ok (.boolean (b == b!"true"))) isBooleanValue args
  else .err .invalidMessage

/-- `CharacterInstance(message_name, arguments)`, `src/instance.cpp:238-250`. -/
def newCharacter (name : Str) (args : List Str) : Res (Str × Inst) :=
  if isCreateWithValue name then
    constructWithValue (fun b => .ok (.character (b.getD 1 0))) isCharacterValue args
  else .err .invalidMessage

/-- `IntegerInstance(message_name, arguments)`, `src/instance.cpp:387-400`. -/
def newInteger (name : Str) (args : List Str) : Res (Str × Inst) :=
  if isCreateWithValue name then
    constructWithValue (fun b => do .ok (.integer (← (← numArg b).toInt))) (fun b => isIntegerValue b || isFloatValue b) args
  else .err .invalidMessage

/-- `FloatInstance(message_name, arguments)`, `src/instance.cpp:564-576`. -/
def newFloat (name : Str) (args : List Str) : Res (Str × Inst) :=
  if isCreateWithValue name then
    constructWithValue (fun b => .ok (.float (atof b).toF32)) isFloatValue args
  else .err .invalidMessage

/-- `StringInstance(message_name, arguments)`, `src/instance.cpp:721-741`. -/
def newString (name : Str) (args : List Str) : Res (Str × Inst) :=
  if isCreate name then constructEmpty (.string []) args
  else if isCreateWithValue name then
    constructWithValue (fun b => .ok (.string (unescape c!"\"" (substr b 1 (b.length - 2))))) isStringValue args
  else .err .invalidMessage

/-- The container constructors, `src/instance.cpp:1055-1067,1469-1481,1564-1578`. -/
def newContainer (i : Inst) (name : Str) (args : List Str) : Res (Str × Inst) :=
  if isCreate name then constructEmpty i args else .err .invalidMessage

end Knuckle
