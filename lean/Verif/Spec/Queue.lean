/-
A vector as a queue of jobs: producers append to it with `pushBack:`, workers take from its front with `popFront`.
-/
import Verif.Spec.Concurrency

namespace Knuckle.Spec

/-- `Queued n t log posted taken`: everything in the log that concerns the vector `n` are questions, accepted `pushBack:` of literals of type `t`, and
accepted `popFront`.  `posted` are the values appended, in order, and `taken` is which connection was told what, in order; the answer `null` is
that there was nothing to take. -/
inductive Queued (n t : Str) : List Request → List Obj → List (Nat × Str) → Prop
  | nil : Queued n t [] [] []
  | post {q log a o posted taken} : Statement q.line n b!"pushBack:" [a] → Denotes t a o → q.accepted → Queued n t log posted taken →
      Queued n t (log ++ [q]) (posted ++ [o]) taken
  | take {q log posted taken} : Statement q.line n b!"popFront" [] → q.accepted → q.reply ≠ b!"null" → Queued n t log posted taken →
      Queued n t (log ++ [q]) posted (taken ++ [(q.conn, q.reply)])
  | empty {q log posted taken} : Statement q.line n b!"popFront" [] → q.reply = b!"null" → Queued n t log posted taken →
      Queued n t (log ++ [q]) posted taken
  | other {q log posted taken} : (¬ q.accepted ∨ (∃ name args, Statement q.line n name args ∧ Question name) ∨ ¬ Concerns q.line n) →
      Queued n t log posted taken → Queued n t (log ++ [q]) posted taken

/-- No accepted request deletes `n`, and the accepted messages to `n` are questions, `pushBack:` and `popFront`. -/
def OnlyQueues (n : Str) (log : List Request) : Prop :=
  ∀ q ∈ log, q.accepted → ¬ Deletes q.line n ∧
    ∀ name args, Statement q.line n name args → Question name ∨ name = b!"pushBack:" ∨ name = b!"popFront"

/-- `r` is how a value is printed, with some precision. -/
def Printed (r : Str) (o : Obj) : Prop := ∃ p, r = o.repr p

end Knuckle.Spec
