/-
Which messages may be sent twice: a client that does not know whether its request arrived can repeat these.
-/
import Verif.Spec.Questions
import Verif.Spec.Behaviour
import Verif.Spec.Effect

namespace Knuckle.Spec

/-- The messages, apart from questions, that have the same effect on an object if they are sent twice as if they are sent once. -/
def repeatable : Inst → List Str
  | .boolean _ => [b!"set:"]
  | .character _ => [b!"set:"]
  | .integer _ => [b!"set:"]
  | .float _ => [b!"set:"]
  | .string _ => [b!"set:", b!"clear", b!"eraseFromIndex:"]
  | .vector t _ => [b!"clear", b!"removeAll:", b!"replaceAll:with:", b!"eraseFromIndex:"] ++ if t = b!"Float" then [] else [b!"sort"]
  | .set _ _ => [b!"add:", b!"remove:", b!"clear"]
  | .dictionary _ _ _ => [b!"associateValue:withKey:", b!"removeKey:", b!"clear"]

/-- The values are of the same kind: both integers, both vectors, …. -/
def sameKind : Inst → Inst → Prop
  | .boolean _, .boolean _ => True
  | .character _, .character _ => True
  | .integer _, .integer _ => True
  | .float _, .float _ => True
  | .string _, .string _ => True
  | .vector _ _, .vector _ _ => True
  | .set _ _, .set _ _ => True
  | .dictionary _ _ _, .dictionary _ _ _ => True
  | _, _ => False

/-- The request may be repeated: it is for a type, for `Context` or for `Connection` (whatever it asks for), or it is a
question, or one of the `repeatable` messages of the variable's value. -/
def Retriable (c : Ctx) (text : Str) : Prop :=
  ∀ a name args, Statement text a name args → Variable a → ∀ i, c.vars.lookup a = some i → Question name ∨ name ∈ repeatable i

end Knuckle.Spec
