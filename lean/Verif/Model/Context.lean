/-
Model of `src/context.cpp` and of `Session::receive` (`src/server.cpp:91-108`).

* `Context` and `Server` are singletons that live as long as the process; the context is a value `Ctx`, the password of
  the server a parameter.
* The time stamps of log records are left out here (`Model/Log.lean` has them).  Writing a log record is assumed to succeed.
* `std::map<std::string, …>` is the list of its entries in key order; `operator<` of strings is a strict total order
  (proved), so the standard's precondition always holds.
* The members `_name` of instances are the keys of the map; instances never read them.
-/
import Verif.Model.Parser
import Verif.Model.Instance

namespace Knuckle

/-- The attributes of `Context`, `src/context.h:43-48`.  `fileOpen` is `_logfile.is_open()`; `fileLog` and `stdoutLog`
are the records written so far to the log file and to the standard output (trimmed request, reply). -/
structure Ctx where
  cfg : Cfg
  vars : List (Str × Inst)
  fileOpen : Bool
  quiet : Bool
  fileLog : List (Str × Str)
  stdoutLog : List (Str × Str)
deriving DecidableEq, Repr

/-- `Context::Context`, `src/context.cpp:48-54`; `fileOpen` is whether a log file name was given and could be opened. -/
def Ctx.init (prec : Int) (eps : Fl) (fileOpen quiet : Bool) : Ctx := ⟨⟨prec, eps⟩, [], fileOpen, quiet, [], []⟩

/-- The attributes of `Session` other than the socket and its buffer, `src/server.h:79-80`. -/
structure Session where
  connected : Bool
  authed : Bool
deriving DecidableEq, Repr

/-- `Session::Session`, `src/server.cpp:87-89`. -/
def Session.init (pwd : Str) : Session := ⟨true, pwd == []⟩

/-- `Session::receive`, `src/server.cpp:91-108`. -/
def Session.receive (pwd : Str) (s : Session) (name : Str) (args : List Str) : Run Session :=
  if name == b!"close" then .ret { s with connected := false } b!"null"
  else if name == b!"authenticateWithPassword:" then
    op1 s (fun a =>
      if !isStringValue a then .err .invalidArgument
      else do
        let v ← stringLit a
        if v == pwd then .ok ({ s with authed := true }, b!"null") else .err .wrongPassword) args
  else .thr s .invalidMessage

/-- The loop of `src/context.cpp:100-104`: every comma makes a new instance, the last one remains. -/
def dictInstances (name : Str) (args : List Str) (pre : Str) : Str → Option (Str × Inst) → Res (Option (Str × Inst))
  | [], acc => .ok acc
  | c :: cs, acc =>
    if c == c!"," then do
      let i ← newContainer (.dictionary pre cs []) name args
      dictInstances name args (pre ++ [c]) cs (some i)
    else dictInstances name args (pre ++ [c]) cs acc

/-- `src/context.cpp:79-105`: the instance made for a type actor, if any.  (The counts `size() - 8` etc. are never
negative, because the actor is a type.) -/
def makeInstance (actor name : Str) (args : List Str) : Res (Option (Str × Inst)) :=
  let type := removeSpaces actor
  if type == b!"Boolean" then do .ok (some (← newBoolean name args))
  else if type == b!"Character" then do .ok (some (← newCharacter name args))
  else if type == b!"Integer" then do .ok (some (← newInteger name args))
  else if type == b!"Float" then do .ok (some (← newFloat name args))
  else if type == b!"String" then do .ok (some (← newString name args))
  else if startsWith type b!"Vector" then do
    let et ← substrR type 7 (type.length - 8)
    .ok (some (← newContainer (.vector et []) name args))
  else if startsWith type b!"Set" then do
    let et ← substrR type 4 (type.length - 5)
    .ok (some (← newContainer (.set et []) name args))
  else if startsWith type b!"Dictionary" then do
    let ts ← substrR type 11 (type.length - 12)
    dictInstances name args [] ts none
  else .ok none

/-- `Context::execute_in_type`, `src/context.cpp:78-113`; dereferencing a null instance is undefined behaviour. -/
def executeInType (c : Ctx) (p : Parsed) : Run Ctx :=
  Res.run c <| do
    match ← makeInstance p.actor p.name p.args with
    | none => .ub
    | some (n, i) =>
      match mapFind strLt n c.vars with
      | none => .ok ({ c with vars := mapInsert strLt n i c.vars }, b!"null")
      | some _ => if startsWith p.name b!"createIfNotExists:" then .ok (c, b!"null") else .err .nameAlreadyUsed

/-- The inner loop of `Context::op_listNamespaces`, `src/context.cpp:180-182`: the text before each `::`. -/
def namespacesOf (pre : Str) : Str → List Str
  | c :: d :: cs =>
    if c == c!":" && d == c!":" then pre :: namespacesOf (pre ++ [c]) (d :: cs) else namespacesOf (pre ++ [c]) (d :: cs)
  | _ => []

/-- The `std::set` built by `Context::op_listNamespaces`, `src/context.cpp:178-182`. -/
def allNamespaces {α : Type} (vars : List (Str × α)) : List Str :=
  vars.foldl (fun acc v => (namespacesOf [] v.1).foldl (fun acc n => setInsert strLt n acc) acc) []

/-- `Context::op_listNamespaces`, `src/context.cpp:175-190`. -/
def opListNamespaces (c : Ctx) : List Str → Run Ctx :=
  op0 c (.ok (c, c!"[" :: (joinComma (allNamespaces c.vars) ++ [c!"]"])))

/-- `Context::op_listVariables`, `src/context.cpp:192-202`. -/
def opListVariables (c : Ctx) : List Str → Run Ctx :=
  op0 c (.ok (c, c!"[" :: (joinComma (c.vars.map (·.1)) ++ [c!"]"])))

/-- The loop of `Context::op_listVariablesOfNamespace`, `src/context.cpp:209-216`. -/
def listOfNamespaceLoop {α : Type} (pre : Str) : List (Str × α) → Str → Str
  | [], acc => acc
  | v :: vs, acc =>
    if !startsWith v.1 pre then listOfNamespaceLoop pre vs acc
    else listOfNamespaceLoop pre vs ((if acc.length > 0 then acc ++ [c!","] else acc) ++ v.1)

/-- `Context::op_listVariablesOfNamespace`, `src/context.cpp:204-218`. -/
def opListVariablesOfNamespace (c : Ctx) : List Str → Run Ctx := op1 c fun a =>
  if !isNamespace a then .err .invalidArgument
  else .ok (c, c!"[" :: (listOfNamespaceLoop (a ++ b!"::") c.vars [] ++ [c!"]"]))

/-- The loop of `Context::op_deleteVariable`, `src/context.cpp:225-230`. -/
def eraseName {α : Type} (n : Str) : List (Str × α) → Option (List (Str × α))
  | [] => none
  | v :: vs => if v.1 == n then some vs else (eraseName n vs).map (v :: ·)

/-- `Context::op_deleteVariable`, `src/context.cpp:220-231`. -/
def opDeleteVariable (c : Ctx) : List Str → Run Ctx := op1 c fun a =>
  if !isVariable a then .err .invalidArgument
  else match eraseName a c.vars with
    | some vs => .ok ({ c with vars := vs }, b!"null")
    | none => .err .unexistentVariable

/-- `Context::op_deleteVariablesOfNamespace`, `src/context.cpp:233-245` (the collected iterators stay valid while others
are erased). -/
def opDeleteVariablesOfNamespace (c : Ctx) : List Str → Run Ctx := op1 c fun a =>
  if !isNamespace a then .err .invalidArgument
  else .ok ({ c with vars := c.vars.filter fun v => !startsWith v.1 (a ++ b!"::") }, b!"null")

/-- `Context::op_setFloatPrecision`, `src/context.cpp:251-259`. -/
def opSetFloatPrecision (c : Ctx) : List Str → Run Ctx := op1 c fun a => do
  let p ← integerLit a
  if p ≤ 0 then .err .invalidArgument else .ok ({ c with cfg := { c.cfg with prec := p } }, b!"null")

/-- `Context::op_setFloatComparisonTolerance`, `src/context.cpp:265-273`. -/
def opSetFloatComparisonTolerance (c : Ctx) : List Str → Run Ctx := op1 c fun a => do
  let t ← floatLit a
  if t.lt (.fin false 0) then .err .invalidArgument else .ok ({ c with cfg := { c.cfg with eps := t } }, b!"null")

/-- `Context::execute_in_context`, `src/context.cpp:115-136`, with `op_getFloatPrecision` and
`op_getFloatComparisonTolerance`, `src/context.cpp:247-249,261-263`, which do not look at their arguments. -/
def contextTable (c : Ctx) : Table Ctx := [
  (b!"listNamespaces", opListNamespaces c),
  (b!"listVariables", opListVariables c),
  (b!"listVariablesOfNamespace:", opListVariablesOfNamespace c),
  (b!"deleteVariable:", opDeleteVariable c),
  (b!"deleteVariablesOfNamespace:", opDeleteVariablesOfNamespace c),
  (b!"getFloatPrecision", fun _ => .ret c (intStr c.cfg.prec)),
  (b!"setFloatPrecision:", opSetFloatPrecision c),
  (b!"getFloatComparisonTolerance", fun _ => .ret c (fmtFixed c.cfg.prec c.cfg.eps)),
  (b!"setFloatComparisonTolerance:", opSetFloatComparisonTolerance c)]

/-- The instance found in the map is mutated in place. -/
def updateVar {α : Type} (n : Str) (i : α) : List (Str × α) → List (Str × α)
  | [] => []
  | v :: vs => if v.1 == n then (v.1, i) :: vs else v :: updateVar n i vs

/-- `Context::execute_in_variable`, `src/context.cpp:138-143`. -/
def executeInVariable [StdSort] (c : Ctx) (p : Parsed) : Run Ctx :=
  match mapFind strLt p.actor c.vars with
  | none => .thr c .unexistentVariable
  | some i => match receive c.cfg i p.name p.args with
    | .ret i' r => .ret { c with vars := updateVar p.actor i' c.vars } r
    | .thr i' e => .thr { c with vars := updateVar p.actor i' c.vars } e
    | .ub => .ub

/-- The `if` chain of `Context::execute`, `src/context.cpp:150-157`, on the context and the session (`none` is the null
pointer, whose use is undefined behaviour).  If no branch applies the output is empty. -/
def executeParsed [StdSort] (pwd : Str) (c : Ctx) (s : Option Session) (p : Parsed) : Run (Ctx × Option Session) :=
  let onCtx : Run Ctx → Run (Ctx × Option Session)
    | .ret c' r => .ret (c', s) r
    | .thr c' e => .thr (c', s) e
    | .ub => .ub
  if isType p.actor then onCtx (executeInType c p)
  else if isContext p.actor then onCtx (dispatch c (contextTable c) p.name p.args)
  else if isVariable p.actor then onCtx (executeInVariable c p)
  else if isConnection p.actor then
    match s with
    | none => .ub
    | some s => match s.receive pwd p.name p.args with
      | .ret s' r => .ret (c, some s') r
      | .thr s' e => .thr (c, some s') e
      | .ub => .ub
  else .ret (c, s) []

/-- The log record, `src/context.cpp:165-171`. -/
def Ctx.record (c : Ctx) (input output : Str) : Ctx :=
  if c.fileOpen then { c with fileLog := c.fileLog ++ [(trim input, output)] }
  else if !c.quiet then { c with stdoutLog := c.stdoutLog ++ [(trim input, output)] }
  else c

/-- `Context::execute`, `src/context.cpp:145-173`: an exception becomes its text. -/
def execute [StdSort] (pwd : Str) (c : Ctx) (s : Option Session) (input : Str) : Outcome (Ctx × Option Session × Str) :=
  match parse input with
  | .ub => .ub
  | .err e => .done (c.record input e.text, s, e.text)
  | .ok p => match executeParsed pwd c s p with
    | .ub => .ub
    | .ret (c', s') r => .done (c'.record input r, s', r)
    | .thr (c', s') e => .done (c'.record input e.text, s', e.text)

end Knuckle
