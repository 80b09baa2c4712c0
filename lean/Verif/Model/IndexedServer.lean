/-
The rest of `src/instance.cpp`, `src/context.cpp` and the completion handlers of `src/server.cpp` once more, with the indices of the C++ as in
`Verif.Model.Indexed`, `IndexedString` and `IndexedVector`: together the whole server with 32-bit `int`s.

Simplifications:
* An exception (one of `src/exceptions.h` or `std::out_of_range`) leaves the context and the session as they were before the request.  The
  other models have the state an operator leaves when it throws; that it is the old one is proved there.
* Comparators, `std::set`, `std::map`, `std::sort`, `atoi`, `atof` and the output of numbers have no indices of this program; they are those of
  `Verif.Model.Instance`.
* `stack` is how many nested calls of `Grammar::is_keyword_message` there is room for.
-/
import Verif.Model.IndexedVector
import Verif.Model.Server

namespace Knuckle.Idx

/-! ### The numbers, characters and Booleans -/

/-- The operators of `BooleanInstance`, `src/instance.cpp:191-228`. -/
def boolTable (v : Bool) : List (Str × (List Str → Ix (Bool × Str))) := [
  (b!"get", op0 (.ok (v, boolStr v))),
  (b!"set:", op1 fun a => do let b ← lift (booleanLit a); .ok (b, b!"null")),
  (b!"isTrue?", op0 (.ok (v, boolStr (v == true)))),
  (b!"isFalse?", op0 (.ok (v, boolStr (v == false))))]

/-- The comparison operators of a character, `src/instance.cpp:328-373`. -/
def charCmp (cmp : Obj → Obj → Res Bool) (v : Byte) : List Str → Ix (Byte × Str) := op1 fun a => do
  let b ← characterLit a
  let r ← lift (cmp (.character v) (.character b))
  .ok (v, boolStr r)

/-- The operators of `CharacterInstance`, `src/instance.cpp:263-373`. -/
def charTable (eps : Fl) (v : Byte) : List (Str × (List Str → Ix (Byte × Str))) := [
  (b!"get", op0 (.ok (v, charStr v))),
  (b!"set:", op1 fun a => do let b ← characterLit a; .ok (b, b!"null")),
  (b!"isAlphabetic?", op0 (.ok (v, boolStr (isAlpha v)))),
  (b!"isNumeric?", op0 (.ok (v, boolStr (isNumeric v)))),
  (b!"isAlphanumeric?", op0 (.ok (v, boolStr (isAlphanumeric v)))),
  (b!"isSpace?", op0 (.ok (v, boolStr (isSpace v)))),
  (b!"isEqualTo?", charCmp (equalTo eps) v),
  (b!"isLessThan?", charCmp (lessThan eps) v),
  (b!"isLessThanOrEqualTo?", charCmp (lessThanOrEqualTo eps) v),
  (b!"isGreaterThan?", charCmp (greaterThan eps) v),
  (b!"isGreaterThanOrEqualTo?", charCmp (greaterThanOrEqualTo eps) v)]

/-- The comparison operators of an integer, `src/instance.cpp:454-514`. -/
def intCmp (cmp : Obj → Obj → Res Bool) (v : Int) : List Str → Ix (Int × Str) := op1 fun a => do
  if ← Ix.and (Ix.not (isIntegerValue a)) (Ix.not (isFloatValue a)) then .throws .invalidArgument
  else if ← isIntegerValue a then
    let b ← integerLit a
    let r ← lift (cmp (.integer v) (.integer b))
    .ok (v, boolStr r)
  else
    let b ← floatLit a
    let r ← lift (cmp (.integer v) (.float b))
    .ok (v, boolStr r)

/-- The arithmetic operators of an integer, `src/instance.cpp:516-550`. -/
def intArith (f : Fl → Fl → Fl) (v : Int) : List Str → Ix (Int × Str) := op1 fun a => do
  if ← Ix.and (Ix.not (isIntegerValue a)) (Ix.not (isFloatValue a)) then .throws .invalidArgument
  else
    let d ← numArg a
    let r ← lift (f (ofInt64 v) d).toInt
    .ok (r, b!"null")

/-- The operators of `IntegerInstance`, `src/instance.cpp:413-550`. -/
def intTable (eps : Fl) (v : Int) : List (Str × (List Str → Ix (Int × Str))) := [
  (b!"get", op0 (.ok (v, intStr v))),
  (b!"set:", op1 fun a => do let b ← integerLit a; .ok (b, b!"null")),
  (b!"isEqualTo?", intCmp (equalTo eps) v),
  (b!"isLessThan?", intCmp (lessThan eps) v),
  (b!"isLessThanOrEqualTo?", intCmp (lessThanOrEqualTo eps) v),
  (b!"isGreaterThan?", intCmp (greaterThan eps) v),
  (b!"isGreaterThanOrEqualTo?", intCmp (greaterThanOrEqualTo eps) v),
  (b!"add:", intArith (Fl.add f64) v),
  (b!"subtract:", intArith (Fl.sub f64) v),
  (b!"multiplyBy:", intArith (Fl.mul f64) v),
  (b!"divideBy:", intArith (Fl.div f64) v)]

/-- The comparison operators of a float, `src/instance.cpp:632-675`. -/
def floatCmp (cmp : Obj → Obj → Res Bool) (v : Fl) : List Str → Ix (Fl × Str) := op1 fun a => do
  let b ← floatLit a
  let r ← lift (cmp (.float v) (.float b))
  .ok (v, boolStr r)

/-- The arithmetic operators of a float, `src/instance.cpp:677-711`. -/
def floatArith (f : Fl → Fl → Fl) (v : Fl) : List Str → Ix (Fl × Str) := op1 fun a => do
  if ← Ix.not (isFloatValue a) then .throws .invalidArgument else .ok ((f v (atof a)).toF32, b!"null")

/-- The operators of `FloatInstance`, `src/instance.cpp:591-711`. -/
def floatTable (cfg : Cfg) (v : Fl) : List (Str × (List Str → Ix (Fl × Str))) := [
  (b!"get", op0 (.ok (v, fmtFixed cfg.prec v))),
  (b!"set:", op1 fun a => do let b ← floatLit a; .ok (b, b!"null")),
  (b!"isEqualTo?", floatCmp (equalTo cfg.eps) v),
  (b!"isLessThan?", floatCmp (lessThan cfg.eps) v),
  (b!"isLessThanOrEqualTo?", floatCmp (lessThanOrEqualTo cfg.eps) v),
  (b!"isGreaterThan?", floatCmp (greaterThan cfg.eps) v),
  (b!"isGreaterThanOrEqualTo?", floatCmp (greaterThanOrEqualTo cfg.eps) v),
  (b!"add:", floatArith (Fl.add f64) v),
  (b!"subtract:", floatArith (Fl.sub f64) v),
  (b!"multiplyBy:", floatArith (Fl.mul f64) v),
  (b!"divideBy:", floatArith (Fl.div f64) v)]

/-! ### Sets and dictionaries -/

/-- `SetInstance::representation`, `src/instance.cpp:1486-1494`. -/
def setRepr (prec : Int) (l : List Obj) : Ix Str := do
  let rs ← reprs prec l
  .ok (c!"{" :: (joinComma rs ++ [c!"}"]))

/-- The operators of `SetInstance`, `src/instance.cpp:1496-1560`. -/
def setTable (cfg : Cfg) (et : Str) (l : List Obj) : List (Str × (List Str → Ix (List Obj × Str))) := [
  (b!"get", op0 (do let r ← setRepr cfg.prec l; .ok (l, r))),
  (b!"isEmpty?", op0 (.ok (l, boolStr l.isEmpty))),
  (b!"contains?", op1 fun a => do
    let o ← getSharedInstance et a
    lift (orderGuard cfg.eps l o)
    .ok (l, boolStr (setFind (ltB cfg.eps) o l))),
  (b!"size", op0 (.ok (l, intStr (toInt l.length)))),
  (b!"add:", op1 fun a => do
    let o ← getSharedInstance et a
    lift (orderGuard cfg.eps l o)
    .ok (setInsert (ltB cfg.eps) o l, b!"null")),
  (b!"remove:", op1 fun a => do
    let o ← getSharedInstance et a
    lift (orderGuard cfg.eps l o)
    .ok (setErase (ltB cfg.eps) o l, b!"null")),
  (b!"clear", op0 (.ok ([], b!"null")))]

/-- The representations of some associations, `src/instance.cpp:1588`. -/
def pairReprs (prec : Int) : List (Obj × Obj) → Ix (List Str)
  | [] => .ok []
  | kv :: l => do
    let k ← repr prec kv.1
    let v ← repr prec kv.2
    let rs ← pairReprs prec l
    .ok ((c!"(" :: (k ++ c!"," :: (v ++ [c!")"]))) :: rs)

/-- `DictionaryInstance::representation`, `src/instance.cpp:1583-1591`. -/
def dictRepr (prec : Int) (l : List (Obj × Obj)) : Ix Str := do
  let rs ← pairReprs prec l
  .ok (c!"(" :: (joinComma rs ++ [c!")"]))

/-- `DictionaryInstance::op_getValueForKey`, `src/instance.cpp:1660-1668`. -/
def dictGet (cfg : Cfg) (kt : Str) (l : List (Obj × Obj)) : List Str → Ix (List (Obj × Obj) × Str) := op1 fun a => do
  let k ← getSharedInstance kt a
  lift (orderGuard cfg.eps (l.map (·.1)) k)
  match mapFind (ltB cfg.eps) k l with
  | some v => do let r ← repr cfg.prec v; .ok (l, r)
  | none => .ok (l, b!"null")

/-- `DictionaryInstance::op_associateValue_withKey`, `src/instance.cpp:1670-1677`. -/
def dictAssociate (cfg : Cfg) (kt vt : Str) (l : List (Obj × Obj)) : List Str → Ix (List (Obj × Obj) × Str) := op2 fun a b => do
  let v ← getSharedInstance vt a
  let k ← getSharedInstance kt b
  lift (orderGuard cfg.eps (l.map (·.1)) k)
  .ok (mapInsert (ltB cfg.eps) k v l, b!"null")

/-- The operators of `DictionaryInstance`, `src/instance.cpp:1593-1692`. -/
def dictTable (cfg : Cfg) (kt vt : Str) (l : List (Obj × Obj)) : List (Str × (List Str → Ix (List (Obj × Obj) × Str))) := [
  (b!"get", op0 (do let r ← dictRepr cfg.prec l; .ok (l, r))),
  (b!"isEmpty?", op0 (.ok (l, boolStr l.isEmpty))),
  (b!"containsKey?", op1 fun a => do
    let k ← getSharedInstance kt a
    lift (orderGuard cfg.eps (l.map (·.1)) k)
    .ok (l, boolStr (mapFind (ltB cfg.eps) k l).isSome)),
  (b!"size", op0 (.ok (l, intStr (toInt l.length)))),
  (b!"keys", op0 (do let r ← vectorRepr cfg.prec (l.map (·.1)); .ok (l, r))),
  (b!"values", op0 (do let r ← vectorRepr cfg.prec (l.map (·.2)); .ok (l, r))),
  (b!"getValueForKey:", dictGet cfg kt l),
  (b!"associateValue:withKey:", dictAssociate cfg kt vt l),
  (b!"removeKey:", op1 fun a => do
    let k ← getSharedInstance kt a
    lift (orderGuard cfg.eps (l.map (·.1)) k)
    .ok (mapErase (ltB cfg.eps) k l, b!"null")),
  (b!"clear", op0 (.ok ([], b!"null")))]

/-! ### Instances -/

/-- Apply a constructor to the new value. -/
def wrapIx {σ : Type} (f : σ → Inst) (x : Ix (σ × Str)) : Ix (Inst × Str) := x.bind fun r => .ok (f r.1, r.2)

/-- The virtual method `Instance::receive`, `src/instance.h:53`. -/
def instReceive [StdSort] (cfg : Cfg) (i : Inst) (name : Str) (args : List Str) : Ix (Inst × Str) :=
  match i with
  | .boolean v => wrapIx .boolean (find (boolTable v) name args)
  | .character v => wrapIx .character (find (charTable cfg.eps v) name args)
  | .integer v => wrapIx .integer (find (intTable cfg.eps v) name args)
  | .float v => wrapIx .float (find (floatTable cfg v) name args)
  | .string v => wrapIx .string (receive cfg.eps v name args)
  | .vector et l => wrapIx (.vector et) (vecReceive cfg et l name args)
  | .set et l => wrapIx (.set et) (find (setTable cfg et l) name args)
  | .dictionary kt vt l => wrapIx (.dictionary kt vt) (find (dictTable cfg kt vt l) name args)

/-- The constructors with a value, `src/instance.cpp:166-178,238-250,387-400,564-576` and `731-738`. -/
def constructWithValue (f : Str → Ix Inst) (valid : Str → Ix Bool) : List Str → Ix (Str × Inst)
  | [a, b] => do
    if ← Ix.or (Ix.not (isVariable a)) (Ix.not (valid b)) then .throws .invalidArgument
    else
      let i ← f b
      .ok (a, i)
  | _ => .throws .wrongNumberOfArguments

/-- The constructors without a value, `src/instance.cpp:723-730,1055-1067,1469-1481,1564-1578`. -/
def constructEmpty (i : Inst) : List Str → Ix (Str × Inst)
  | [a] => do if ← Ix.not (isVariable a) then .throws .invalidArgument else .ok (a, i)
  | _ => .throws .wrongNumberOfArguments

/-- `BooleanInstance(message_name, arguments)`, `src/instance.cpp:166-178`. -/
def newBoolean (name : Str) (args : List Str) : Ix (Str × Inst) :=
  if isCreateWithValue name then constructWithValue (fun b => .ok (.boolean (b == b!"true"))) (fun b => .ok (isBooleanValue b)) args
  else .throws .invalidMessage

/-- `CharacterInstance(message_name, arguments)`, `src/instance.cpp:238-250`. -/
def newCharacter (name : Str) (args : List Str) : Ix (Str × Inst) :=
  if isCreateWithValue name then constructWithValue (fun b => do let c ← «at» b 1; .ok (.character c)) isCharacterValue args
  else .throws .invalidMessage

/-- `IntegerInstance(message_name, arguments)`, `src/instance.cpp:387-400`.  (The C++ has `!a && !b` for `!(a || b)`.) -/
def newInteger (name : Str) (args : List Str) : Ix (Str × Inst) :=
  if isCreateWithValue name then
    constructWithValue (fun b => do let x ← numArg b; let i ← lift x.toInt; .ok (.integer i))
      (fun b => Ix.or (isIntegerValue b) (isFloatValue b)) args
  else .throws .invalidMessage

/-- `FloatInstance(message_name, arguments)`, `src/instance.cpp:564-576`. -/
def newFloat (name : Str) (args : List Str) : Ix (Str × Inst) :=
  if isCreateWithValue name then constructWithValue (fun b => .ok (.float (atof b).toF32)) isFloatValue args
  else .throws .invalidMessage

/-- `StringInstance(message_name, arguments)`, `src/instance.cpp:721-741`. -/
def newString (name : Str) (args : List Str) : Ix (Str × Inst) :=
  if isCreate name then constructEmpty (.string []) args
  else if isCreateWithValue name then constructWithValue (fun b => do let v ← unquote b; .ok (.string v)) isStringValue args
  else .throws .invalidMessage

/-- The container constructors, `src/instance.cpp:1055-1067,1469-1481,1564-1578`. -/
def newContainer (i : Inst) (name : Str) (args : List Str) : Ix (Str × Inst) :=
  if isCreate name then constructEmpty i args else .throws .invalidMessage

/-! ### `src/context.cpp` -/

/-- The condition and the body of the loop `src/context.cpp:100-104`. -/
def dictBody (name : Str) (args : List Str) (ts : Str) (i : Int) (acc : Option (Str × Inst)) :
    Ix (Flow (Option (Str × Inst)) (Option (Str × Inst))) := do
  if i < size ts then
    let c ← «at» ts i
    if c == c!"," then
      let kt ← substr2 ts 0 i
      let j ← int (i + 1)
      let vt ← substr1 ts j
      let x ← newContainer (.dictionary kt vt []) name args
      .ok (.next (some x))
    else .ok (.next acc)
  else .ok (.stop acc)

/-- `src/context.cpp:79-105`: the instance made for a type actor, if any. -/
def makeInstance (actor name : Str) (args : List Str) : Ix (Option (Str × Inst)) := do
  let type ← removeSpaces actor
  if type == b!"Boolean" then do let x ← newBoolean name args; .ok (some x)
  else if type == b!"Character" then do let x ← newCharacter name args; .ok (some x)
  else if type == b!"Integer" then do let x ← newInteger name args; .ok (some x)
  else if type == b!"Float" then do let x ← newFloat name args; .ok (some x)
  else if type == b!"String" then do let x ← newString name args; .ok (some x)
  else if ← startsWith type b!"Vector" then
    let n ← int (size type - 8)
    let et ← substr2 type 7 n
    let x ← newContainer (.vector et []) name args
    .ok (some x)
  else if ← startsWith type b!"Set" then
    let n ← int (size type - 5)
    let et ← substr2 type 4 n
    let x ← newContainer (.set et []) name args
    .ok (some x)
  else if ← startsWith type b!"Dictionary" then
    let n ← int (size type - 12)
    let ts ← substr2 type 11 n
    up (dictBody name args ts) 0 none
  else .ok none

/-- `Context::execute_in_type`, `src/context.cpp:78-113`; dereferencing a null instance is undefined behaviour. -/
def executeInType (c : Ctx) (p : Parsed) : Ix (Ctx × Str) := do
  let x ← makeInstance p.actor p.name p.args
  match x with
  | none => .ub
  | some (n, i) =>
    match mapFind strLt n c.vars with
    | none => .ok ({ c with vars := mapInsert strLt n i c.vars }, b!"null")
    | some _ => do
      if ← startsWith p.name b!"createIfNotExists:" then .ok (c, b!"null") else .throws .nameAlreadyUsed

/-- The condition and the body of the inner loop of `Context::op_listNamespaces`, `src/context.cpp:180-182`. -/
def namespaceBody (n : Str) (i : Int) (acc : List Str) : Ix (Flow (List Str) (List Str)) := do
  let k ← int (size n - 1)
  if i < k then
    if ← Ix.and ((«at» n i).bind fun x => .ok (x == c!":")) ((int (i + 1)).bind fun j => («at» n j).bind fun x => .ok (x == c!":")) then
      let t ← substr2 n 0 i
      .ok (.next (setInsert strLt t acc))
    else .ok (.next acc)
  else .ok (.stop acc)

/-- The loops of `Context::op_listNamespaces`, `src/context.cpp:178-182`. -/
def allNamespaces : List (Str × Inst) → List Str → Ix (List Str)
  | [], acc => .ok acc
  | v :: vs, acc => do
    let acc ← up (namespaceBody v.1) 0 acc
    allNamespaces vs acc

/-- `Context::op_listNamespaces`, `src/context.cpp:175-190`. -/
def opListNamespaces (c : Ctx) : List Str → Ix (Ctx × Str) := op0 do
  let l ← allNamespaces c.vars []
  .ok (c, c!"[" :: (joinComma l ++ [c!"]"]))

/-- `Context::op_listVariables`, `src/context.cpp:192-202`. -/
def opListVariables (c : Ctx) : List Str → Ix (Ctx × Str) := op0 (.ok (c, c!"[" :: (joinComma (c.vars.map (·.1)) ++ [c!"]"])))

/-- The loop of `Context::op_listVariablesOfNamespace`, `src/context.cpp:209-216`. -/
def listOfNamespaceLoop (pre : Str) : List (Str × Inst) → Str → Ix Str
  | [], acc => .ok acc
  | v :: vs, acc => do
    if ← Ix.not (startsWith v.1 pre) then listOfNamespaceLoop pre vs acc
    else listOfNamespaceLoop pre vs ((if acc.length > 0 then acc ++ [c!","] else acc) ++ v.1)

/-- `Context::op_listVariablesOfNamespace`, `src/context.cpp:204-218`. -/
def opListVariablesOfNamespace (c : Ctx) : List Str → Ix (Ctx × Str) := op1 fun a => do
  if ← Ix.not (isNamespace a) then .throws .invalidArgument
  else
    let t ← listOfNamespaceLoop (a ++ b!"::") c.vars []
    .ok (c, c!"[" :: (t ++ [c!"]"]))

/-- `Context::op_deleteVariable`, `src/context.cpp:220-231`. -/
def opDeleteVariable (c : Ctx) : List Str → Ix (Ctx × Str) := op1 fun a => do
  if ← Ix.not (isVariable a) then .throws .invalidArgument
  else match eraseName a c.vars with
    | some vs => .ok ({ c with vars := vs }, b!"null")
    | none => .throws .unexistentVariable

/-- The loops of `Context::op_deleteVariablesOfNamespace`, `src/context.cpp:239-243`: what is left. -/
def keepOutside (pre : Str) : List (Str × Inst) → Ix (List (Str × Inst))
  | [] => .ok []
  | v :: vs => do
    let b ← startsWith v.1 pre
    let l ← keepOutside pre vs
    .ok (if b then l else v :: l)

/-- `Context::op_deleteVariablesOfNamespace`, `src/context.cpp:233-245`. -/
def opDeleteVariablesOfNamespace (c : Ctx) : List Str → Ix (Ctx × Str) := op1 fun a => do
  if ← Ix.not (isNamespace a) then .throws .invalidArgument
  else
    let l ← keepOutside (a ++ b!"::") c.vars
    .ok ({ c with vars := l }, b!"null")

/-- `Context::op_setFloatPrecision`, `src/context.cpp:251-259`. -/
def opSetFloatPrecision (c : Ctx) : List Str → Ix (Ctx × Str) := op1 fun a => do
  let p ← integerLit a
  if p ≤ 0 then .throws .invalidArgument else .ok ({ c with cfg := { c.cfg with prec := p } }, b!"null")

/-- `Context::op_setFloatComparisonTolerance`, `src/context.cpp:265-273`. -/
def opSetFloatComparisonTolerance (c : Ctx) : List Str → Ix (Ctx × Str) := op1 fun a => do
  let t ← floatLit a
  if t.lt (.fin false 0) then .throws .invalidArgument else .ok ({ c with cfg := { c.cfg with eps := t } }, b!"null")

/-- `Context::execute_in_context`, `src/context.cpp:115-136`, with the operators of `src/context.cpp:247-249,261-263`. -/
def contextTable (c : Ctx) : List (Str × (List Str → Ix (Ctx × Str))) := [
  (b!"listNamespaces", opListNamespaces c),
  (b!"listVariables", opListVariables c),
  (b!"listVariablesOfNamespace:", opListVariablesOfNamespace c),
  (b!"deleteVariable:", opDeleteVariable c),
  (b!"deleteVariablesOfNamespace:", opDeleteVariablesOfNamespace c),
  (b!"getFloatPrecision", fun _ => .ok (c, intStr c.cfg.prec)),
  (b!"setFloatPrecision:", opSetFloatPrecision c),
  (b!"getFloatComparisonTolerance", fun _ => .ok (c, fmtFixed c.cfg.prec c.cfg.eps)),
  (b!"setFloatComparisonTolerance:", opSetFloatComparisonTolerance c)]

/-- `Context::execute_in_variable`, `src/context.cpp:138-143`. -/
def executeInVariable [StdSort] (c : Ctx) (p : Parsed) : Ix (Ctx × Str) :=
  match mapFind strLt p.actor c.vars with
  | none => .throws .unexistentVariable
  | some i => do
    let r ← instReceive c.cfg i p.name p.args
    .ok ({ c with vars := updateVar p.actor r.1 c.vars }, r.2)

/-- `Session::receive`, `src/server.cpp:91-108`. -/
def sessionReceive (pwd : Str) (s : Session) (name : Str) (args : List Str) : Ix (Session × Str) :=
  if name == b!"close" then .ok ({ s with connected := false }, b!"null")
  else if name == b!"authenticateWithPassword:" then
    op1 (fun a => do
      if ← Ix.not (isStringValue a) then .throws .invalidArgument
      else
        let v ← stringLit a
        if v == pwd then .ok ({ s with authed := true }, b!"null") else .throws .wrongPassword) args
  else .throws .invalidMessage

/-- The `if` chain of `Context::execute`, `src/context.cpp:150-157`. -/
def executeParsed [StdSort] (pwd : Str) (c : Ctx) (s : Option Session) (p : Parsed) : Ix ((Ctx × Option Session) × Str) := do
  if ← isType p.actor then
    let r ← executeInType c p
    .ok ((r.1, s), r.2)
  else if isContext p.actor then
    let r ← find (contextTable c) p.name p.args
    .ok ((r.1, s), r.2)
  else if ← isVariable p.actor then
    let r ← executeInVariable c p
    .ok ((r.1, s), r.2)
  else if isConnection p.actor then
    match s with
    | none => .ub
    | some s => do
      let r ← sessionReceive pwd s p.name p.args
      .ok ((c, some r.1), r.2)
  else .ok ((c, s), [])

/-- The log record, `src/context.cpp:165-171`. -/
def record (c : Ctx) (input output : Str) : Ix Ctx :=
  if c.fileOpen then do
    let t ← trim input
    .ok { c with fileLog := c.fileLog ++ [(t, output)] }
  else if !c.quiet then do
    let t ← trim input
    .ok { c with stdoutLog := c.stdoutLog ++ [(t, output)] }
  else .ok c

/-- `try { … } catch (const char*) { … } catch (...) { … }`, `src/context.cpp:147-163`: the text of an exception. -/
def caught {α : Type} (old : α) : Ix (α × Str) → Ix (α × Str)
  | .throws e => .ok (old, e.text)
  | .outOfRange => .ok (old, Exc.unknown.text)
  | x => x

/-- `Context::execute`, `src/context.cpp:145-173`. -/
def execute [StdSort] (stack : Nat) (pwd : Str) (c : Ctx) (s : Option Session) (input : Str) : Ix (Ctx × Option Session × Str) := do
  let r ← caught (c, s) (do
    let p ← parse stack input
    executeParsed pwd c s p)
  let c' ← record r.1.1 input r.2
  .ok (c', r.1.2, r.2)

/-! ### `src/server.cpp` -/

/-- The `try` block `src/server.cpp:118-124`: the actor, empty if there was an exception. -/
def actorOf (stack : Nat) (line : Str) : Ix Str :=
  match parse stack line with
  | .ok p => .ok p.actor
  | .throws _ => .ok []
  | .outOfRange => .ok []
  | .ub => .ub
  | .stack => .stack
  | .stuck => .stuck

/-- The completion handler of the read after a line was taken, `src/server.cpp:114-132`. -/
def handleLine [StdSort] (stack : Nat) (s : Server) (i : Nat) (c : Conn) (line rest : Str) : Ix Server := do
  let actor ← actorOf stack line
  if c.sess.authed || isConnection actor then
    let (ctx', sess', out) ← execute stack s.pwd s.ctx (some c.sess) line
    match sess' with
    | some sess' => .ok { s with
        ctx := ctx'
        conns := s.conns.set i { c with sess := sess', inbuf := rest, phase := if sess'.connected then .writing out else .dead } }
    | none => .ub
  else .ok { s with conns := s.conns.set i { c with inbuf := rest, phase := .writing Exc.notAuthenticated.text } }

/-- An outcome of the other model, for the parts without indices. -/
def plain {α : Type} : Outcome α → Ix α
  | .done a => .ok a
  | .ub => .ub

/-- One event, `src/server.cpp:66-145`; `none` if it cannot happen now.  Only the completion of a read has indices. -/
def step [StdSort] (stack : Nat) (s : Server) (e : Event) : Option (Ix Server) :=
  match e with
  | .read i => match s.conns[i]? with
    | some c => if c.phase = .reading then
        match splitLine c.inbuf with
        | some (line, rest) => some (handleLine stack s i c line rest)
        | none => none
      else none
    | none => none
  | e => (Knuckle.step s e).map plain

/-- A history of events; `none` if some event of it cannot happen. -/
def run [StdSort] (stack : Nat) (s : Server) : List Event → Option (Ix Server)
  | [] => some (.ok s)
  | e :: es => match step stack s e with
    | none => none
    | some (.ok s') => run stack s' es
    | some x => some x

end Knuckle.Idx
