/-
A set that only grows.
-/
import Verif.Spec.Concurrency

namespace Knuckle.Spec

/-- No accepted request deletes `n`, and the accepted messages to `n` are questions and `add:`. -/
def OnlyAdds (n : Str) (log : List Request) : Prop :=
  ∀ q ∈ log, q.accepted → ¬ Deletes q.line n ∧ ∀ name args, Statement q.line n name args → Question name ∨ name = b!"add:"

/-- An accepted request of the log adds the value `o` of type `t` to `n`. -/
def AddedTo (n t : Str) (log : List Request) (o : Obj) : Prop :=
  ∃ q ∈ log, q.accepted ∧ ∃ a, Statement q.line n b!"add:" [a] ∧ Denotes t a o

end Knuckle.Spec
