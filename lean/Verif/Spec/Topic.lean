/-
A vector as a topic: clients append to it with `pushBack:`, and read it.
-/
import Verif.Spec.Concurrency

namespace Knuckle.Spec

/-- `Posted n t log os`: `n` is not deleted, and `os` are what the accepted messages of all clients to `n` that are not questions append, in order:
all of them are `pushBack:` of a literal of type `t`. -/
inductive Posted (n t : Str) : List Request → List Obj → Prop
  | nil : Posted n t [] []
  | post {q log a o os} : Statement q.line n b!"pushBack:" [a] → Denotes t a o → q.accepted → Posted n t log os → Posted n t (q :: log) (o :: os)
  | other {q log os} : (¬ q.accepted ∨ (∃ name args, Statement q.line n name args ∧ Question name) ∨ ¬ Concerns q.line n) →
      Posted n t log os → Posted n t (q :: log) os

/-- No accepted request deletes `n`, and the accepted messages to `n` are questions and `pushBack:`. -/
def OnlyPosts (n : Str) (log : List Request) : Prop :=
  ∀ q ∈ log, q.accepted → ¬ Deletes q.line n ∧ ∀ name args, Statement q.line n name args → Question name ∨ name = b!"pushBack:"

end Knuckle.Spec
