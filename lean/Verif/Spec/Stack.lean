/-
A vector as a stack: `pushBack:` puts something on top, `popBack` takes what is on top.
-/
import Verif.Spec.Concurrency

namespace Knuckle.Spec

/-- The request `p` was accepted and pushes the value `o` of type `t` onto `n`. -/
def Pushes (n t : Str) (p : Request) (o : Obj) : Prop := p.accepted ∧ ∃ a, Statement p.line n b!"pushBack:" [a] ∧ Denotes t a o

/-- In this part of the log every accepted request that concerns `n` and is not a question is a `pushBack:` of a literal of type `t` or a `popBack`, and these
match like opening and closing brackets.  The requests may be of any clients. -/
inductive Nested (n t : Str) : List Request → Prop
  | nil : Nested n t []
  | other {q m} : (¬ q.accepted ∨ (∃ name args, Statement q.line n name args ∧ Question name) ∨ ¬ Concerns q.line n) → Nested n t m → Nested n t (q :: m)
  | pair {p o m q m'} : Pushes n t p o → Nested n t m → Statement q.line n b!"popBack" [] → q.accepted → Nested n t m' → Nested n t (p :: (m ++ q :: m'))

/-- No accepted request deletes `n`, and the accepted messages to `n` are questions, `pushBack:` and `popBack`. -/
def OnlyStacks (n : Str) (log : List Request) : Prop :=
  ∀ q ∈ log, q.accepted → ¬ Deletes q.line n ∧
    ∀ name args, Statement q.line n name args → Question name ∨ name = b!"pushBack:" ∨ name = b!"popBack"

end Knuckle.Spec
