/-
A vector as a pool of resources: clients take an element out of it, and later give back what they were told.
-/
import Verif.Spec.Concurrency

namespace Knuckle.Spec

/-- The message takes an element out of a vector. -/
inductive TakesOne : Str → List Str → Prop
  | popFront : TakesOne b!"popFront" []
  | popBack : TakesOne b!"popBack" []
  | popAtIndex (i : Str) : TakesOne b!"popAtIndex:" [i]

/-- The message puts the element written `a` into a vector. -/
inductive GivesBack (a : Str) : Str → List Str → Prop
  | pushFront : GivesBack a b!"pushFront:" [a]
  | pushBack : GivesBack a b!"pushBack:" [a]
  | insert (i : Str) : GivesBack a b!"insert:beforeIndex:" [a, i]

/-- `Lent n log held`: everything in the log that concerns the vector `n` are accepted messages by which connections take elements, give
back, byte for byte, something they were told, or rearrange it; `held` tells which connection was told what and has not given it back. -/
inductive Lent (n : Str) : List Request → List (Nat × Str) → Prop
  | nil : Lent n [] []
  | take {q log held name args} : Statement q.line n name args → TakesOne name args → q.accepted → q.reply ≠ b!"null" → Lent n log held →
      Lent n (log ++ [q]) ((q.conn, q.reply) :: held)
  | empty {q log held name args} : Statement q.line n name args → TakesOne name args → q.reply = b!"null" → Lent n log held →
      Lent n (log ++ [q]) held
  | give {q log held name args a} : Statement q.line n name args → GivesBack a name args → q.accepted → (q.conn, a) ∈ held →
      Lent n log held → Lent n (log ++ [q]) (held.erase (q.conn, a))
  | rearrange {q log held name} : Statement q.line n name [] → name = b!"reverse" ∨ name = b!"sort" → q.accepted → Lent n log held →
      Lent n (log ++ [q]) held
  | other {q log held} : (¬ q.accepted ∨ (∃ name args, Statement q.line n name args ∧ Question name) ∨ ¬ Concerns q.line n) →
      Lent n log held → Lent n (log ++ [q]) held

end Knuckle.Spec
