/-
An abstract machine for the whole service: what the server knows, what it answers to a request and what it knows afterwards, and
what a sequence of requests of several clients does.  Nothing here refers to how the server does it.
-/
import Verif.Spec.Errors
import Verif.Spec.Reals
import Verif.Spec.Server

namespace Knuckle.Spec

/-- What the server knows: the values of the variables, and the two settings. -/
structure Data where
  value : Str → Option Inst
  cfg : Cfg

/-- Variable `n` gets the value `i`. -/
def Data.put (d : Data) (n : Str) (i : Inst) : Data := { d with value := fun m => if m = n then some i else d.value m }

open Classical in
/-- The variables with this property are removed. -/
noncomputable def Data.remove (d : Data) (p : Str → Prop) : Data := { d with value := fun m => if p m then none else d.value m }

/-- There is a receiver with this name. -/
def Data.Present (d : Data) (s : Option Session) (a : Str) : Prop :=
  IsType a ∨ a = b!"Context" ∨ (a = b!"Connection" ∧ s ≠ none) ∨ ∃ i, d.value a = some i

/-- The receiver `a` knows the message `name`, with arguments of these kinds. -/
inductive Data.Knows (d : Data) : Str → Str → List ArgKind → Prop
  | type {a name ks} : Creation a name ks → Knows d a name ks
  | context {name ks} : (name, ks) ∈ contextSignature → Knows d b!"Context" name ks
  | connection {name ks} : (name, ks) ∈ connectionSignature → Knows d b!"Connection" name ks
  | variable {n i name ks} : d.value n = some i → (name, ks) ∈ signature i → Knows d n name ks

/-- `l` lists exactly the texts with the property `p`, in ascending order. -/
def Lists (l : List Str) (p : Str → Prop) : Prop := l.Pairwise (· < ·) ∧ ∀ x, x ∈ l ↔ p x

/-- `Step pwd d s text r`: one request `text` of a session `s` (or of none), on a server with the password `pwd` that knows `d`.
`r` is what the server knows afterwards, the state of the session afterwards, and the reply; or `none` if the behaviour is
undefined.  Only the outcome of sorting floats, and that of a request with both a malformed argument and an integer out of range,
may be one of several. -/
inductive Step (pwd : Str) (d : Data) (s : Option Session) (text : Str) : Option (Data × Option Session × Str) → Prop
  /- errors -/
  | noStatement : (∀ a name args, ¬ Statement text a name args) → Step pwd d s text (some (d, s, b!"SyntaxError: invalid statement."))
  | unknown {n name args} : Statement text n name args → Variable n → d.value n = none →
      Step pwd d s text (some (d, s, b!"RuntimeError: name cannot be resolved to a variable."))
  | noConnection {name args} : Statement text b!"Connection" name args → s = none → Step pwd d s text none
  | noMessage {a name args} : Statement text a name args → d.Present s a → (∀ ks, ¬ d.Knows a name ks) →
      Step pwd d s text (some (d, s, b!"RuntimeError: invalid message."))
  | wrongNumber {a name args ks} : Statement text a name args → d.Present s a → d.Knows a name ks → args.length ≠ ks.length →
      Step pwd d s text (some (d, s, b!"RuntimeError: wrong number of arguments."))
  | malformed {a name args ks} : Statement text a name args → d.Present s a → d.Knows a name ks → args.length = ks.length →
      (∃ q ∈ ks.zip args, ¬ Fits q.1 q.2) → Step pwd d s text (some (d, s, b!"RuntimeError: invalid argument."))
  | outOfRange {a name args ks} : Statement text a name args → d.Present s a → d.Knows a name ks → args.length = ks.length →
      (∃ q ∈ ks.zip args, Overflows q.1 q.2) → Step pwd d s text none
  /- messages to types -/
  | created {a name args n i} : Statement text a name args → Creates a name args n i → d.value n = none →
      Step pwd d s text (some (d.put n i, s, b!"null"))
  | kept {a name args n i j} : Statement text a name args → Creates a name args n i → d.value n = some j →
      name ∈ [b!"createIfNotExists:", b!"createIfNotExists:withValue:"] → Step pwd d s text (some (d, s, b!"null"))
  | used {a name args n i j} : Statement text a name args → Creates a name args n i → d.value n = some j →
      name ∈ [b!"create:", b!"create:withValue:"] →
      Step pwd d s text (some (d, s, b!"RuntimeError: variable name already used."))
  /- messages to variables -/
  | gives {n name args i i' r} : Statement text n name args → d.value n = some i → Behaves d.cfg i name args (.gives i' r) →
      Step pwd d s text (some (d.put n i', s, r))
  | refuses {n name args i} : Statement text n name args → d.value n = some i → Behaves d.cfg i name args .refuses →
      Step pwd d s text (some (d, s, b!"RuntimeError: invalid argument."))
  | undefined {n name args i} : Statement text n name args → d.value n = some i → Behaves d.cfg i name args .undefined →
      Step pwd d s text none
  /- messages to the context -/
  | listVariables {l} : Statement text b!"Context" b!"listVariables" [] → Lists l (fun n => d.value n ≠ none) →
      Step pwd d s text (some (d, s, listText c!"[" c!"]" l))
  | listVariablesOfNamespace {ns l} : Statement text b!"Context" b!"listVariablesOfNamespace:" [ns] → Identifier ns →
      Lists l (fun n => d.value n ≠ none ∧ InNamespace n ns) → Step pwd d s text (some (d, s, listText c!"[" c!"]" l))
  | listNamespaces {l} : Statement text b!"Context" b!"listNamespaces" [] →
      Lists l (fun ns => Identifier ns ∧ ∃ n, d.value n ≠ none ∧ InNamespace n ns) →
      Step pwd d s text (some (d, s, listText c!"[" c!"]" l))
  | deleted {n i} : Statement text b!"Context" b!"deleteVariable:" [n] → d.value n = some i →
      Step pwd d s text (some (d.remove (· = n), s, b!"null"))
  | nothingToDelete {n} : Statement text b!"Context" b!"deleteVariable:" [n] → Variable n → d.value n = none →
      Step pwd d s text (some (d, s, b!"RuntimeError: name cannot be resolved to a variable."))
  | namespaceDeleted {ns} : Statement text b!"Context" b!"deleteVariablesOfNamespace:" [ns] → Identifier ns →
      Step pwd d s text (some (d.remove (InNamespace · ns), s, b!"null"))
  | precision : Statement text b!"Context" b!"getFloatPrecision" [] → Step pwd d s text (some (d, s, intStr d.cfg.prec))
  | precisionSet {a p} : Statement text b!"Context" b!"setFloatPrecision:" [a] → Denotes b!"Integer" a (.integer p) → 0 < p →
      Step pwd d s text (some ({ d with cfg := { d.cfg with prec := p } }, s, b!"null"))
  | precisionRefused {a p} : Statement text b!"Context" b!"setFloatPrecision:" [a] → Denotes b!"Integer" a (.integer p) → ¬ 0 < p →
      Step pwd d s text (some (d, s, b!"RuntimeError: invalid argument."))
  | tolerance : Statement text b!"Context" b!"getFloatComparisonTolerance" [] →
      Step pwd d s text (some (d, s, fmtFixed d.cfg.prec d.cfg.eps))
  | toleranceSet {a x} : Statement text b!"Context" b!"setFloatComparisonTolerance:" [a] → Denotes b!"Float" a (.float x) →
      ¬ Less x (.fin false 0) → Step pwd d s text (some ({ d with cfg := { d.cfg with eps := x } }, s, b!"null"))
  | toleranceRefused {a x} : Statement text b!"Context" b!"setFloatComparisonTolerance:" [a] → Denotes b!"Float" a (.float x) →
      Less x (.fin false 0) → Step pwd d s text (some (d, s, b!"RuntimeError: invalid argument."))
  /- messages to the connection -/
  | closed {x} : Statement text b!"Connection" b!"close" [] → s = some x →
      Step pwd d s text (some (d, some { x with connected := false }, b!"null"))
  | authenticated {a x} : Statement text b!"Connection" b!"authenticateWithPassword:" [a] → s = some x → StringLiteral a pwd →
      Step pwd d s text (some (d, some { x with authed := true }, b!"null"))
  | wrongPassword {a v} : Statement text b!"Connection" b!"authenticateWithPassword:" [a] → s ≠ none → StringLiteral a v → v ≠ pwd →
      Step pwd d s text (some (d, s, b!"AuthenticationError: wrong password."))

/-- The outcome is the only one: the request does not sort a vector of floats, and does not have both a malformed argument and one
that is an integer out of range. -/
def Determined (d : Data) (text : Str) : Prop :=
  (∀ n l, Statement text n b!"sort" [] → d.value n ≠ some (.vector b!"Float" l)) ∧
  ∀ a name args ks, Statement text a name args → d.Knows a name ks → (∃ q ∈ ks.zip args, ¬ Fits q.1 q.2) →
    ¬ ∃ q ∈ ks.zip args, Overflows q.1 q.2

/-- `Trace pwd d log d'`: the requests of the log, of any number of connections, one after the other, with their replies, lead from
`d` to `d'`.  A request of a connection that is not authenticated is not executed unless it is a statement to `Connection`; a
connection that was closed makes no more requests. -/
inductive Trace (pwd : Str) (d : Data) : List Request → Data → Prop
  | nil : Trace pwd d [] d
  | request {log d' d'' i line reply s s'} : Trace pwd d log d' → ¬ Closed log i → SessionAfter pwd log i s →
      (Authenticated pwd log i ∨ ToConnection line) → Step pwd d' (some s) line (some (d'', some s', reply)) →
      Trace pwd d (log ++ [⟨i, line, reply⟩]) d''
  | ignored {log d' i line} : Trace pwd d log d' → ¬ Closed log i → ¬ Authenticated pwd log i → ¬ ToConnection line →
      Trace pwd d (log ++ [⟨i, line, b!"AuthenticationError: not authenticated."⟩]) d'

/-- What a context knows. -/
def data (c : Ctx) : Data := ⟨fun n => c.vars.lookup n, c.cfg⟩

/-- What can be observed of an execution. -/
def observe : Outcome (Ctx × Option Session × Str) → Option (Data × Option Session × Str)
  | .done (c, s, r) => some (data c, s, r)
  | .ub => none

end Knuckle.Spec
