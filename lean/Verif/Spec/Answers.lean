/-
What a request to a variable is observed to do, given what its message means for the value of the variable.
-/
import Verif.Spec.Behaviour
import Verif.Spec.Effect

namespace Knuckle.Spec

/-- Variable `n` exists and has value `i`. -/
def Holds (c : Ctx) (n : Str) (i : Inst) : Prop := c.vars.lookup n = some i

/-- Variable `n` does not exist. -/
def Absent (c : Ctx) (n : Str) : Prop := c.vars.lookup n = none

/-- The request `text` is answered with `reply`, the session is not affected, and the context is `c'` afterwards. -/
def Replies [StdSort] (pwd : Str) (c : Ctx) (s : Option Session) (text reply : Str) (c' : Ctx) : Prop :=
  execute pwd c s text = .done (c', s, reply)

/-- The request `text` is answered with `reply` and neither variables nor settings nor the session change. -/
def JustReplies [StdSort] (pwd : Str) (c : Ctx) (s : Option Session) (text reply : Str) : Prop :=
  ∃ c', Replies pwd c s text reply c' ∧ SameData c c'

/-- The request `text` does to variable `n` what the result says: new value and reply, and nothing else; or it is refused
with the "invalid argument" error and changes nothing; or it is undefined behaviour. -/
def Answers [StdSort] (pwd : Str) (c : Ctx) (s : Option Session) (text n : Str) : Result Inst → Prop
  | .gives i reply => ∃ c', Replies pwd c s text reply c' ∧ OnlyChanged c c' n i
  | .refuses => JustReplies pwd c s text b!"RuntimeError: invalid argument."
  | .undefined => execute pwd c s text = .ub

/-- The variable `n` is in the namespace `ns`: its name is `ns::` and an identifier. -/
def InNamespace (n ns : Str) : Prop := ∃ x, Identifier x ∧ n = ns ++ (b!"::" ++ x)

/-- The request is addressed to the variable `n`, or deletes it, alone or with its namespace. -/
inductive Concerns (text n : Str) : Prop
  | message {name args} : Statement text n name args → Concerns text n
  | delete : Statement text b!"Context" b!"deleteVariable:" [n] → Concerns text n
  | deleteNamespace {ns} : Statement text b!"Context" b!"deleteVariablesOfNamespace:" [ns] → InNamespace n ns → Concerns text n

/-- The request asks for the creation of a variable `n`, with value `i`. -/
def CreationOf (text n : Str) (i : Inst) : Prop := ∃ a name args, Statement text a name args ∧ Creates a name args n i

/-- The request is an accepted change of the settings. -/
inductive SetsSetting (text : Str) : Prop
  | precision {a} : Statement text b!"Context" b!"setFloatPrecision:" [a] → SetsSetting text
  | tolerance {a} : Statement text b!"Context" b!"setFloatComparisonTolerance:" [a] → SetsSetting text

/-- The error replies. -/
def errorTexts : List Str := [
  b!"SyntaxError: invalid statement.", b!"RuntimeError: invalid argument.", b!"RuntimeError: invalid message.",
  b!"RuntimeError: variable name already used.", b!"RuntimeError: name cannot be resolved to a variable.",
  b!"RuntimeError: wrong number of arguments.", b!"RuntimeError: cannot compare these two types.",
  b!"AuthenticationError: not authenticated.", b!"AuthenticationError: wrong password.", b!"RuntimeError: unknown error."]

end Knuckle.Spec
